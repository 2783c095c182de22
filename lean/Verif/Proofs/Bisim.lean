import Verif.Proofs.History
import Verif.Proofs.Dropout
import Verif.Spec.Session

/-!
Two models that differ only in what earlier calls left in their buffers behave alike in training.
-/

namespace Verif

/-- The same outcome, up to `Q`. -/
def ERel {α β : Type _} (Q : α → β → Prop) : Exec α → Exec β → Prop
  | .ok a, .ok b => Q a b
  | .throw m, .throw m' => m = m'
  | .ub, .ub => True
  | _, _ => False

theorem ERel.bind {α β γ δ : Type _} {Q : α → β → Prop} {Q' : γ → δ → Prop} {r1 : Exec α} {r2 : Exec β}
    {f : α → Exec γ} {g : β → Exec δ} (h : ERel Q r1 r2) (hf : ∀ a b, Q a b → ERel Q' (f a) (g b)) :
    ERel Q' (r1 >>= f) (r2 >>= g) := by
  cases r1 <;> cases r2 <;> first | exact h.elim | exact h | exact hf _ _ h

theorem ERel.refl {α : Type _} {Q : α → α → Prop} (hQ : ∀ a, Q a a) (r : Exec α) : ERel Q r r := by
  cases r
  · exact hQ _
  · rfl
  · trivial

theorem ERel.mono {α β : Type _} {Q Q' : α → β → Prop} {r1 : Exec α} {r2 : Exec β} (h : ERel Q r1 r2)
    (hQ : ∀ a b, Q a b → Q' a b) : ERel Q' r1 r2 := by
  cases r1 <;> cases r2 <;> first | exact h.elim | exact h | exact hQ _ _ h

theorem forFrom_rel {σ τ : Type _} {f : Nat → σ → Exec σ} {g : Nat → τ → Exec τ} (Q : Nat → σ → τ → Prop) :
    ∀ (k i0 : Nat) (s : σ) (t : τ), Q i0 s t →
      (∀ i s t, i0 ≤ i → i < i0 + k → Q i s t → ERel (Q (i + 1)) (f i s) (g i t)) →
      ERel (Q (i0 + k)) (forFrom i0 k s f) (forFrom i0 k t g) := by
  intro k
  induction k with
  | zero => intro i0 s t h _; exact h
  | succ k ih =>
    intro i0 s t h step
    refine (step i0 s t (Nat.le_refl _) (by omega) h).bind fun s' t' h' => ?_
    rw [show i0 + (k + 1) = i0 + 1 + k by omega]
    exact ih (i0 + 1) s' t' h' fun i s t h1 h2 => step i s t (by omega) (by omega)

theorem forUp_rel {σ τ : Type _} {f : Nat → σ → Exec σ} {g : Nat → τ → Exec τ} (Q : Nat → σ → τ → Prop)
    {n : Nat} {s : σ} {t : τ} (h0 : Q 0 s t)
    (step : ∀ i s t, i < n → Q i s t → ERel (Q (i + 1)) (f i s) (g i t)) :
    ERel (Q n) (forUp n s f) (forUp n t g) := by
  have := forFrom_rel (f := f) (g := g) Q n 0 s t h0 fun i s t _ h => step i s t (by omega)
  simpa [forUp] using this

/-- Buffers of length `n` with the same first `i` values. -/
def Prefix {α : Type _} (n i : Nat) (a b : List α) : Prop :=
  a.length = n ∧ b.length = n ∧ ∀ j, j < i → a[j]? = b[j]?

theorem Prefix.eq {α : Type _} {n : Nat} {a b : List α} (h : Prefix n n a b) : a = b := by
  apply List.ext_getElem?
  intro j
  by_cases hj : j < n
  · exact h.2.2 j hj
  · rw [List.getElem?_eq_none (by rw [h.1]; omega), List.getElem?_eq_none (by rw [h.2.1]; omega)]

theorem Prefix.set {α : Type _} {n i : Nat} {a b : List α} (h : Prefix n i a b) (hi : i < n) (v : α) :
    Prefix n (i + 1) (a.set i v) (b.set i v) := by
  obtain ⟨h1, h2, h3⟩ := h
  refine ⟨by simp [h1], by simp [h2], fun j hj => ?_⟩
  by_cases e : i = j
  · subst e
    simp [h1, h2, hi]
  · rw [List.getElem?_set_ne e, List.getElem?_set_ne e]
    exact h3 j (by omega)

theorem Prefix.wr {α : Type _} {n i : Nat} {a b : List α} (h : Prefix n i a b) (hi : i < n) (v : α) :
    ERel (Prefix n (i + 1)) (wr a i v) (wr b i v) := by
  rw [wr_ok (by rw [h.1]; exact hi), wr_ok (by rw [h.2.1]; exact hi)]
  exact h.set hi v

/-- A loop that overwrites a whole buffer with values that do not depend on it. -/
theorem overwrite {α : Type _} (k : Nat → Exec α) {n : Nat} {a b : List α} (ha : a.length = n)
    (hb : b.length = n) :
    forUp n a (fun i d => do let v ← k i; wr d i v) = forUp n b (fun i d => do let v ← k i; wr d i v) := by
  have h := forUp_rel (f := fun i d => do let v ← k i; wr d i v) (g := fun i d => do let v ← k i; wr d i v)
    (Prefix n) (n := n) (s := a) (t := b) ⟨ha, hb, fun j hj => absurd hj (by omega)⟩ (by
      intro i s t hi hp
      exact (ERel.refl (Q := fun a b => a = b) (fun _ => rfl) (k i)).bind fun v w e => e ▸ hp.wr hi v)
  revert h
  generalize forUp n a _ = r1
  generalize forUp n b _ = r2
  intro h
  cases r1 <;> cases r2 <;> first | exact h.elim | exact congrArg _ h | rfl | exact congrArg _ (Prefix.eq h)

namespace Act

theorem mapArr_indep (f : ℝ → ℝ) {a b : List ℝ} (src : List ℝ) (h : a.length = b.length) :
    mapArr f a src a.length = mapArr f b src b.length := by
  rw [h]
  have e : ∀ d, mapArr f d src b.length = forUp b.length d (fun i d => do
      let v ← (do let x ← rd src i; Exec.ok (f x)); wr d i v) := by
    intro d
    unfold mapArr
    congr 1
    funext i d
    cases rd src i <;> rfl
  rw [e, e]
  exact overwrite _ h rfl

theorem softmax1Opt_indep {a b : List ℝ} (src g : List ℝ) (h : a.length = b.length) :
    softmax1OptNoCheck a src g a.length = softmax1OptNoCheck b src g b.length := by
  rw [h]
  set n := b.length with hn
  have key : ERel (Prefix n n) (softmax1OptNoCheck a src g n) (softmax1OptNoCheck b src g n) := by
    unfold softmax1OptNoCheck
    refine forUp_rel (Prefix n) ⟨h, hn.symm, fun j hj => absurd hj (by omega)⟩ ?_
    intro i s t hi hp
    refine (hp.wr hi 0).bind fun s t hp => ?_
    refine (forUp_rel (fun _ => Prefix n (i + 1)) hp ?_)
    intro j s t hj hp
    refine (ERel.refl (Q := fun a b => a = b) (fun _ => rfl) (rd src i)).bind ?_
    rintro si _ rfl
    refine (ERel.refl (Q := fun a b => a = b) (fun _ => rfl) (rd src j)).bind ?_
    rintro sj _ rfl
    refine (ERel.refl (Q := fun a b => a = b) (fun _ => rfl) (rd g j)).bind ?_
    rintro gj _ rfl
    have e : rd s i = rd t i := by unfold rd; rw [hp.2.2 i (by omega)]
    rw [e]
    refine (ERel.refl (Q := fun a b => a = b) (fun _ => rfl) (rd t i)).bind ?_
    rintro d _ rfl
    have hw := Prefix.wr (i := i) (a := s) (b := t) ⟨hp.1, hp.2.1, fun j hj => hp.2.2 j (by omega)⟩ hi
    exact hw _
  revert key
  generalize softmax1OptNoCheck a src g n = r1
  generalize softmax1OptNoCheck b src g n = r2
  intro h
  cases r1 <;> cases r2 <;> first | exact h.elim | exact congrArg _ h | rfl | exact congrArg _ (Prefix.eq h)

end Act

namespace Loss

theorem mse1_indep {a b : List ℝ} (y yh : List ℝ) (norm : ℝ) (h : a.length = b.length) :
    meanSquaredError1 a y yh norm a.length = meanSquaredError1 b y yh norm b.length := by
  rw [h]
  have e : ∀ d, meanSquaredError1 d y yh norm b.length = forUp b.length d (fun i d => do
      let v ← (do let a ← rd y i; let b ← rd yh i; Exec.ok (squaredError1 a b norm)); wr d i v) := by
    intro d
    unfold meanSquaredError1
    congr 1
    funext i d
    cases rd y i <;> first | rfl | (cases rd yh i <;> rfl)
  rw [e, e]
  exact overwrite _ h rfl

theorem crossEntropy1_indep {a b : List ℝ} (y yh : List ℝ) (norm : ℝ) (h : a.length = b.length) :
    crossEntropy1 a y yh norm a.length = crossEntropy1 b y yh norm b.length := by
  rw [h]
  have e : ∀ d, crossEntropy1 d y yh norm b.length = forUp b.length d (fun i d => do
      let v ← (do let a ← rd y i; let b ← rd yh i; Exec.ok (crossEntropyS1 a b norm)); wr d i v) := by
    intro d
    unfold crossEntropy1
    congr 1
    funext i d
    cases rd y i <;> first | rfl | (cases rd yh i <;> rfl)
  rw [e, e]
  exact overwrite _ h rfl

end Loss

namespace Dense

theorem fill_indep {α : Type _} {a b : List α} (n : Nat) (v : α) (ha : a.length = n) (hb : b.length = n) :
    fill a n v = fill b n v := by
  have e : ∀ d : List α, fill d n v = forUp n d (fun i d => do let w ← Exec.ok v; wr d i w) := fun _ => rfl
  rw [e, e]
  exact overwrite _ ha hb

theorem dense1_input_length {s s' : Grads ℝ} {g x w : List ℝ} {n m : Nat}
    (h : dense1 s g x w n m = .ok s') : s'.input.length = s.input.length := by
  unfold dense1 at h
  obtain ⟨ig, h1, h⟩ := Exec.bind_eq_ok h
  have e1 : ig.length = s.input.length := by
    refine forUp_inv (fun d => d.length = s.input.length) ?_ rfl h1
    intro i d d' hd h
    exact (wr_length h).trans hd
  refine forUp_inv (fun d => d.input.length = s.input.length) ?_ e1 h
  intro i d d' hd h
  obtain ⟨_, _, h⟩ := Exec.bind_eq_ok h
  obtain ⟨_, _, h⟩ := Exec.bind_eq_ok h
  obtain ⟨_, _, h⟩ := Exec.bind_eq_ok h
  refine forUp_inv (fun d => d.input.length = s.input.length) ?_ hd h
  intro j d d' hd h
  obtain ⟨_, _, h⟩ := Exec.bind_eq_ok h
  obtain ⟨_, _, h⟩ := Exec.bind_eq_ok h
  obtain ⟨_, _, h⟩ := Exec.bind_eq_ok h
  obtain ⟨_, _, h⟩ := Exec.bind_eq_ok h
  obtain ⟨_, _, h⟩ := Exec.bind_eq_ok h
  obtain ⟨_, _, h⟩ := Exec.bind_eq_ok h
  obtain ⟨_, h1, h⟩ := Exec.bind_eq_ok h
  cases h
  exact (wr_length h1).trans hd

end Dense

namespace Drop

theorem arrScale_indep {a b : List ℝ} {n : Nat} (g : List ℝ) (v : ℝ) (ha : a.length = n) (hb : b.length = n) :
    arrScale a g v n = arrScale b g v n := by
  have e : ∀ d, arrScale d g v n = forUp n d (fun i d => do
      let w ← (do let x ← rd g i; Exec.ok (x * v)); wr d i w) := by
    intro d
    unfold arrScale
    congr 1
    funext i d
    cases rd g i <;> rfl
  rw [e, e]
  exact overwrite _ ha hb

theorem arrScale_length {a a' g : List ℝ} {v : ℝ} {n : Nat} (h : arrScale a g v n = .ok a') :
    a'.length = a.length := by
  refine forUp_inv (fun d => d.length = a.length) ?_ rfl h
  intro i d d' hd h
  obtain ⟨x, _, h⟩ := Exec.bind_eq_ok h
  exact (wr_length h).trans hd

theorem clearAt_length : ∀ {is : List Nat} {g g' : List ℝ}, clearAt is g = .ok g' → g'.length = g.length := by
  intro is
  induction is with
  | nil => intro g g' h; cases h; rfl
  | cons i is ih =>
    intro g g' h
    obtain ⟨g1, h1, h⟩ := Exec.bind_eq_ok h
    exact (ih h).trans (wr_length h1)

end Drop

namespace Net

open Verif.Spec

noncomputable section

/-- What `core` leaves out and a training run depends on. -/
def extra (a : AnyLayer) : List (List ℝ) × Nat × Option (Nat × ℝ) :=
  (a.paramGrads, a.lastInputGradient.length,
    match a with
    | .loss _ l => some (l.inputSize, l.invBatch)
    | _ => none)

/-- How many numbers a dropout layer has drawn, and the length of its output buffer. -/
def draws : AnyLayer → Option (Nat × Nat)
  | .dropout _ _ l => some (l.drawn, l.output.length)
  | _ => none

/-- Layers that behave alike in training: they differ in what the next sample overwrites. -/
def Ess (a b : AnyLayer) : Prop := core a = core b ∧ extra a = extra b ∧ draws a = draws b

theorem Ess.refl (a : AnyLayer) : Ess a a := ⟨rfl, rfl, rfl⟩

theorem Ess.symm {a b : AnyLayer} (h : Ess a b) : Ess b a := ⟨h.1.symm, h.2.1.symm, h.2.2.symm⟩

theorem Ess.trans {a b c : AnyLayer} (h : Ess a b) (h' : Ess b c) : Ess a c :=
  ⟨h.1.trans h'.1, h.2.1.trans h'.2.1, h.2.2.trans h'.2.2⟩

/-- A layer without the contents of its input gradients, and without the score of a loss layer. -/
def blank : AnyLayer → AnyLayer
  | .dense l => .dense { l with grads := { l.grads with input := List.replicate l.grads.input.length 0 } }
  | .conv l => .conv { l with inputGrads := List.replicate l.inputGrads.length 0 }
  | .maxPool l => .maxPool { l with inputGrads := List.replicate l.inputGrads.length 0 }
  | .avgPool l => .avgPool { l with inputGrads := List.replicate l.inputGrads.length 0 }
  | .act f l => .act f { l with inputGradients := List.replicate l.inputGradients.length 0 }
  | .dropout mx raw l => .dropout mx raw { l with inputGrad := List.replicate l.inputGrad.length 0 }
  | .rnn f f1 l => .rnn f f1 l
  | .loss f l => .loss f { l with
      loss := 0, gradients := List.replicate l.gradients.length 0, cumulative := 0, correct := 0
      incorrect := 0, tolerance := 0 }

theorem replicate_inj {n m : Nat} (h : List.replicate n (0 : ℝ) = List.replicate m 0) : n = m := by
  simpa using congrArg List.length h

theorem ess_of_blank {a b : AnyLayer} (h : blank a = blank b) : Ess a b := by
  unfold Ess
  cases a <;> cases b <;> simp only [blank, reduceCtorEq, AnyLayer.dense.injEq, AnyLayer.conv.injEq,
    AnyLayer.maxPool.injEq, AnyLayer.avgPool.injEq, AnyLayer.act.injEq, AnyLayer.dropout.injEq,
    AnyLayer.rnn.injEq, AnyLayer.loss.injEq] at h
  case dense.dense a b =>
    obtain ⟨a1, a2, a3, a4, ⟨a5, a6, a7⟩, a8, a9⟩ := a
    obtain ⟨b1, b2, b3, b4, ⟨b5, b6, b7⟩, b8, b9⟩ := b
    simp at h
    simp [core, extra, draws, AnyLayer.paramGrads, AnyLayer.lastInputGradient, h]
  case conv.conv a b =>
    cases a; cases b
    simp at h
    simp [core, extra, draws, AnyLayer.paramGrads, AnyLayer.lastInputGradient, h]
  case maxPool.maxPool a b =>
    cases a; cases b
    simp at h
    simp [core, extra, draws, AnyLayer.paramGrads, AnyLayer.lastInputGradient, h]
  case avgPool.avgPool a b =>
    cases a; cases b
    simp at h
    simp [core, extra, draws, AnyLayer.paramGrads, AnyLayer.lastInputGradient, h]
  case act.act f a g b =>
    cases a; cases b
    obtain ⟨rfl, h⟩ := h
    simp at h
    simp [core, extra, draws, AnyLayer.paramGrads, AnyLayer.lastInputGradient, h]
  case dropout.dropout mx raw a mx' raw' b =>
    cases a; cases b
    obtain ⟨rfl, rfl, h⟩ := h
    simp at h
    simp [core, extra, draws, AnyLayer.paramGrads, AnyLayer.lastInputGradient, h]
  case rnn.rnn =>
    obtain ⟨rfl, rfl, rfl⟩ := h
    exact ⟨rfl, rfl, rfl⟩
  case loss.loss f a g b =>
    cases a; cases b
    obtain ⟨rfl, h⟩ := h
    simp at h
    simp [core, extra, draws, AnyLayer.paramGrads, AnyLayer.lastInputGradient, h]

theorem lastOutput_blank (a : AnyLayer) : (blank a).lastOutput = a.lastOutput := by cases a <;> rfl

/-- Replace the output buffer. -/
def setOut (y : List ℝ) : AnyLayer → AnyLayer
  | .dense l => .dense { l with output := y }
  | .conv l => .conv { l with out := y }
  | .maxPool l => .maxPool { l with out := y }
  | .avgPool l => .avgPool { l with out := y }
  | .act f l => .act f { l with output := y }
  | a => a

theorem forward_form {n m : Nat} {a a' : AnyLayer} {x y : List ℝ} (hm : Maps n m a)
    (h : a.forward x = .ok (a', none)) (ho : a'.lastOutput = .ok y) : a' = setOut y a := by
  cases a with
  | dense l =>
    have h : keep _ _ _ = _ := h
    cases e : l.forward x with
    | ok l' =>
      rw [e] at h
      cases h
      obtain ⟨o, h2, h3⟩ := Exec.bind_eq_ok e
      cases h3
      cases ho
      rfl
    | throw m => rw [e] at h; cases h
    | ub => rw [e] at h; cases h
  | conv l =>
    have h : keep _ _ _ = _ := h
    cases e : l.forward x with
    | ok l' =>
      rw [e] at h
      cases h
      obtain ⟨o, h2, h3⟩ := Exec.bind_eq_ok e
      cases h3
      cases ho
      rfl
    | throw m => rw [e] at h; cases h
    | ub => rw [e] at h; cases h
  | maxPool l =>
    have h : keep _ _ _ = _ := h
    cases e : Slide.maxForward l x with
    | ok l' =>
      rw [e] at h
      cases h
      obtain ⟨o, h2, h3⟩ := Exec.bind_eq_ok e
      cases h3
      cases ho
      rfl
    | throw m => rw [e] at h; cases h
    | ub => rw [e] at h; cases h
  | avgPool l =>
    have h : keep _ _ _ = _ := h
    cases e : Slide.avgForward l x with
    | ok l' =>
      rw [e] at h
      cases h
      obtain ⟨o, h2, h3⟩ := Exec.bind_eq_ok e
      cases h3
      cases ho
      rfl
    | throw m => rw [e] at h; cases h
    | ub => rw [e] at h; cases h
  | act f l =>
    have h : keep _ _ _ = _ := h
    cases e : f.forward l x with
    | ok l' =>
      rw [e] at h
      cases h
      cases f with
      | linear => cases e; cases ho; rfl
      | _ =>
        obtain ⟨o, h2, h3⟩ := Exec.bind_eq_ok e
        cases h3
        cases ho
        rfl
    | throw m => rw [e] at h; cases h
    | ub => rw [e] at h; cases h
  | dropout => exact hm.elim
  | rnn => exact hm.elim
  | loss => exact hm.elim

theorem maps_setLastInput {n m : Nat} {a : AnyLayer} (h : Maps n m a) (x : List ℝ) : Maps n m (a.setLastInput x) :=
  maps_core (core_setLastInput _ _) h

theorem maps_forward_rel {n m : Nat} {a b : AnyLayer} {v : List ℝ} (h : Ess a b) (hm : Maps n m a)
    (hv : v.length = n) : ∃ a' b' y, a.trainingForward v = .ok (a', none) ∧ b.trainingForward v = .ok (b', none) ∧
      blank a' = blank b' ∧ a'.lastOutput = .ok y ∧ b'.lastOutput = .ok y ∧ y.length = m ∧ Ess a a' := by
  obtain ⟨y, hy1, hy2⟩ := yields_of_maps hm hv
  have hmb : Maps n m b := maps_core h.1.symm hm
  obtain ⟨a', a1, a2⟩ := hy2 (a.setLastInput v) (core_setLastInput _ _)
  obtain ⟨b', b1, b2⟩ := hy2 (b.setLastInput v) ((core_setLastInput _ _).trans h.1.symm)
  have ea := forward_form (maps_setLastInput hm v) a1 a2
  have eb := forward_form (maps_setLastInput hmb v) b1 b2
  have ta : a.trainingForward v = .ok (a', none) := by
    rcases trainingForward_cases a v with ⟨_, _, _, rfl⟩ | e
    · exact hm.elim
    · rw [e]; exact a1
  have tb : b.trainingForward v = .ok (b', none) := by
    rcases trainingForward_cases b v with ⟨_, _, _, rfl⟩ | e
    · exact hmb.elim
    · rw [e]; exact b1
  refine ⟨a', b', y, ta, tb, ?_, a2, b2, hy1, ?_⟩
  · subst ea eb
    obtain ⟨h1, h2, h3⟩ := h
    cases a <;> cases b <;> simp only [core, reduceCtorEq, AnyLayer.dense.injEq, AnyLayer.conv.injEq,
      AnyLayer.maxPool.injEq, AnyLayer.avgPool.injEq, AnyLayer.act.injEq] at h1
    case dense.dense a b =>
      obtain ⟨x1, x2, x3, x4, ⟨x5, x6, x7⟩, x8, x9⟩ := a
      obtain ⟨y1, y2, y3, y4, ⟨y5, y6, y7⟩, y8, y9⟩ := b
      simp at h1
      simp [extra, AnyLayer.paramGrads, AnyLayer.lastInputGradient] at h2
      simp [blank, setOut, AnyLayer.setLastInput, h1, h2]
    case conv.conv a b =>
      cases a; cases b
      simp at h1
      simp [extra, AnyLayer.paramGrads, AnyLayer.lastInputGradient] at h2
      simp [blank, setOut, AnyLayer.setLastInput, h1, h2]
    case maxPool.maxPool a b =>
      cases a; cases b
      simp at h1
      simp [extra, AnyLayer.paramGrads, AnyLayer.lastInputGradient] at h2
      simp [blank, setOut, AnyLayer.setLastInput, h1, h2]
    case avgPool.avgPool a b =>
      cases a; cases b
      simp at h1
      simp [extra, AnyLayer.paramGrads, AnyLayer.lastInputGradient] at h2
      simp [blank, setOut, AnyLayer.setLastInput, h1, h2]
    case act.act f a g b =>
      cases a; cases b
      obtain ⟨rfl, h1⟩ := h1
      simp [extra, AnyLayer.paramGrads, AnyLayer.lastInputGradient] at h2
      simp [blank, setOut, AnyLayer.setLastInput, h2]
    all_goals exact hm.elim
  · refine ⟨(core_trainingForward ta).symm, ?_⟩
    subst ea
    cases a <;> first | exact ⟨rfl, rfl⟩ | exact hm.elim

/-- The input gradient buffer of a dense layer has the length that `backward` fills, and so have the buffers of a
dropout layer. -/
def GradFit : AnyLayer → Prop
  | .dense l => l.grads.input.length = l.inputSize
  | .dropout _ _ l => l.inputGrad.length = l.size ∧ l.output.length = l.size
  | _ => True

/-- Neither dropout nor recurrent. -/
def Simple : AnyLayer → Prop
  | .dropout _ _ _ => False
  | .rnn _ _ _ => False
  | _ => True

/-- Not recurrent. -/
def NonRec : AnyLayer → Prop
  | .rnn _ _ _ => False
  | _ => True

theorem Simple.nonRec {a : AnyLayer} (h : Simple a) : NonRec a := by
  cases a <;> first | exact h.elim | trivial

/-- A layer as in `Maps`, or a dropout layer. -/
def Pass (n m : Nat) : AnyLayer → Prop
  | .dropout _ _ l => m = n ∧ l.size = n
  | a => Maps n m a

theorem Pass.cases {n m : Nat} {a : AnyLayer} (h : Pass n m a) :
    (∃ mx raw l, a = .dropout mx raw l ∧ m = n ∧ l.size = n) ∨ Maps n m a := by
  cases a with
  | dropout mx raw l => exact .inl ⟨mx, raw, l, rfl, h⟩
  | _ => exact .inr h

theorem Pass.maps {n m : Nat} {a : AnyLayer} (h : Maps n m a) : Pass n m a := by
  cases a with
  | dropout mx raw l => exact h.elim
  | _ => exact h

theorem pass_core {n m : Nat} {a b : AnyLayer} (h : core b = core a) (hp : Pass n m a) : Pass n m b := by
  rcases hp.cases with ⟨mx, raw, l, rfl, h1, h2⟩ | hm
  · cases b <;> simp only [core, reduceCtorEq, AnyLayer.dropout.injEq, Drop.Layer.mk.injEq] at h
    exact ⟨h1, h.2.2.1.trans h2⟩
  · exact Pass.maps (maps_core h hm)

/-- A list of such layers whose sizes agree. -/
inductive PassAll : Nat → Nat → List AnyLayer → Prop
  | nil (n : Nat) : PassAll n n []
  | cons {n k m : Nat} {l : AnyLayer} {ls : List AnyLayer} : Pass n k l → PassAll k m ls → PassAll n m (l :: ls)

theorem PassAll.maps {n m : Nat} {ls : List AnyLayer} (h : MapsAll n m ls) : PassAll n m ls := by
  induction h with
  | nil n => exact .nil n
  | cons h1 _ ih => exact .cons (.maps h1) ih

theorem gradFit_of_ess {a b : AnyLayer} (h : Ess a b) (ha : GradFit a) : GradFit b := by
  obtain ⟨h1, h2, h3⟩ := h
  cases b <;> try trivial
  case dense b =>
    cases a <;> simp only [core, reduceCtorEq, AnyLayer.dense.injEq] at h1
    case dense a =>
    obtain ⟨x1, x2, x3, x4, ⟨x5, x6, x7⟩, x8, x9⟩ := a
    obtain ⟨y1, y2, y3, y4, ⟨y5, y6, y7⟩, y8, y9⟩ := b
    simp at h1
    simp [extra, AnyLayer.paramGrads, AnyLayer.lastInputGradient] at h2
    have : x5.length = x1 := ha
    show y5.length = y1
    omega
  case dropout mx raw b =>
    cases a <;> simp only [core, reduceCtorEq, AnyLayer.dropout.injEq, Drop.Layer.mk.injEq] at h1
    case dropout mx' raw' a =>
    simp [extra, AnyLayer.paramGrads, AnyLayer.lastInputGradient] at h2
    simp [draws] at h3
    obtain ⟨e1, e2⟩ : a.inputGrad.length = a.size ∧ a.output.length = a.size := ha
    show b.inputGrad.length = b.size ∧ b.output.length = b.size
    omega

theorem drop_forward_rel {mx : Nat} {raw : Nat → Nat} {l : Drop.Layer} {b : AnyLayer} {v : List ℝ}
    (h : Ess (.dropout mx raw l) b) (ho : l.output.length = l.size) (hv : v.length = l.size) :
    ∃ a' b' y, (AnyLayer.dropout mx raw l).trainingForward v = .ok (.dropout mx raw a', none) ∧
      b.trainingForward v = .ok (b', none) ∧ blank (.dropout mx raw a') = blank b' ∧ a'.output = y ∧
      b'.lastOutput = .ok y ∧ y.length = l.size ∧ a'.size = l.size ∧ a'.inputGrad.length = l.inputGrad.length := by
  obtain ⟨h1, h2, h3⟩ := h
  cases b <;> simp only [core, reduceCtorEq, AnyLayer.dropout.injEq] at h1
  case dropout mx' raw' b =>
  obtain ⟨rfl, rfl, h1⟩ := h1
  obtain ⟨a1, a2, a3, a4, a5, a6, a7⟩ := l
  obtain ⟨b1, b2, b3, b4, b5, b6, b7⟩ := b
  simp at h1
  simp [extra, AnyLayer.paramGrads, AnyLayer.lastInputGradient] at h2
  simp [draws] at h3
  obtain ⟨rfl, rfl, rfl⟩ := h1
  obtain ⟨rfl, h3⟩ := h3
  dsimp only at ho hv
  have e1 := Drop.dropLoop_eq mx raw ⟨a1, a2, a3, a4, a5, a6, a7⟩ ho v hv
  have e2 := Drop.dropLoop_eq mx raw ⟨a1, a2, a3, a4, b5, b6, b7⟩ (h3 ▸ ho) v hv
  dsimp only at e1 e2
  let mask := (List.range a1).filter (fun i => decide ¬(raw (a4 + i) : ℝ) / (mx : ℝ) > a2)
  let out := tab a1 (fun i => if (raw (a4 + i) : ℝ) / (mx : ℝ) > a2 then vec v i * a3 else 0)
  have t1 : (AnyLayer.dropout mx raw ⟨a1, a2, a3, a4, a5, a6, a7⟩).trainingForward v =
      .ok (.dropout mx raw ⟨a1, a2, a3, a4 + a1, mask, out, a7⟩, none) := by
    show keep _ (Drop.Layer.trainingForward _ _ _ _) _ = _
    unfold Drop.Layer.trainingForward
    rw [e1]
    rfl
  have t2 : (AnyLayer.dropout mx raw ⟨a1, a2, a3, a4, b5, b6, b7⟩).trainingForward v =
      .ok (.dropout mx raw ⟨a1, a2, a3, a4 + a1, mask, out, b7⟩, none) := by
    show keep _ (Drop.Layer.trainingForward _ _ _ _) _ = _
    unfold Drop.Layer.trainingForward
    rw [e2]
    rfl
  refine ⟨_, _, _, t1, t2, ?_, rfl, rfl, tab_length _ _, rfl, rfl⟩
  simp [blank, h2]

/-- Training forwards on layers that behave alike. -/
theorem train_forward_rel {n m : Nat} {a b : AnyLayer} {v : List ℝ} (h : Ess a b) (hm : Pass n m a) (hf : GradFit a)
    (hv : v.length = n) : ∃ a' b' y, a.trainingForward v = .ok (a', none) ∧ b.trainingForward v = .ok (b', none) ∧
      blank a' = blank b' ∧ a'.lastOutput = .ok y ∧ b'.lastOutput = .ok y ∧ y.length = m ∧ GradFit a' ∧ NonRec a' := by
  rcases hm.cases with ⟨mx, raw, l, rfl, rfl, h2⟩ | hm
  · obtain ⟨a', b', y, h3, h4, h5, h6, h7, h8, h9, h10⟩ := drop_forward_rel h hf.2 (hv.trans h2.symm)
    exact ⟨_, b', y, h3, h4, h5, congrArg _ h6, h7, h8.trans h2, ⟨h10.trans (hf.1.trans h9.symm),
      (congrArg _ h6).trans (h8.trans h9.symm)⟩, trivial⟩
  · obtain ⟨a', b', y, h3, h4, h5, h6, h7, h8, h9⟩ := maps_forward_rel h hm hv
    refine ⟨a', b', y, h3, h4, h5, h6, h7, h8, gradFit_of_ess h9 hf, ?_⟩
    have := maps_core h9.1.symm hm
    cases a' <;> first | exact this.elim | trivial

/-! ### Loss layers -/

theorem loss_forward_rel {f : LossFn} {a b : Loss.Layer} (h : blank (.loss f a) = blank (.loss f b)) (v : List ℝ) :
    ERel (fun r1 r2 => blank r1.1 = blank r2.1 ∧ r1.2 = r2.2) ((AnyLayer.loss f a).forward v)
      ((AnyLayer.loss f b).forward v) := by
  obtain ⟨a1, a2, a3, a4, a5, a6, a7, a8, a9, a10⟩ := a
  obtain ⟨b1, b2, b3, b4, b5, b6, b7, b8, b9, b10⟩ := b
  simp [blank] at h
  obtain ⟨rfl, rfl, hg, rfl, rfl⟩ := h
  have fin : ∀ (x y : Loss.Layer), x.inputSize = y.inputSize → x.target = y.target →
      x.gradients.length = y.gradients.length → x.invBatch = y.invBatch → x.lastInput = y.lastInput →
      blank (.loss f x) = blank (.loss f y) := by
    intro x y h1 h2 h3 h4 h5
    cases x; cases y
    simp at h1 h2 h3 h4 h5
    simp [blank, h1, h2, h3, h4, h5]
  have key : ERel (fun r1 r2 => blank (.loss f r1.1) = blank (.loss f r2.1) ∧ r1.2 = r2.2)
      (f.forward ⟨a1, a2, a3, a4, a5, a6, a7, a8, a9, a10⟩ v)
      (f.forward ⟨a1, a2, b3, b4, a5, b6, b7, b8, a9, b10⟩ v) := by
    cases f with
    | mse =>
      show ERel _ (Loss.mseForward _ _) (Loss.mseForward _ _)
      unfold Loss.mseForward
      dsimp only
      split
      · exact ⟨fin _ _ rfl rfl hg rfl rfl, rfl⟩
      · refine (ERel.refl (Q := fun a b => a = b) (fun _ => rfl) _).bind ?_
        rintro loss _ rfl
        split <;> split <;> exact ⟨fin _ _ rfl rfl hg rfl rfl, rfl⟩
    | cce =>
      show ERel _ (Loss.cceForward _ _) (Loss.cceForward _ _)
      unfold Loss.cceForward
      dsimp only
      split
      · exact ⟨fin _ _ rfl rfl hg rfl rfl, rfl⟩
      · refine (ERel.refl (Q := fun a b => a = b) (fun _ => rfl) _).bind ?_
        rintro loss _ rfl
        refine (ERel.refl (Q := fun a b => a = b) (fun _ => rfl) _).bind ?_
        rintro mx _ rfl
        unfold Loss.argactive
        dsimp only
        cases Loss.argactiveFrom a2 0 a1 with
        | ok active =>
          dsimp only
          split <;> exact ⟨fin _ _ rfl rfl hg rfl rfl, rfl⟩
        | throw m => exact ⟨fin _ _ rfl rfl hg rfl rfl, rfl⟩
        | ub => trivial
  exact key.bind fun r1 r2 h => h

/-! ### Backwards -/

theorem gradFit_backward {a a' : AnyLayer} {g : List ℝ} {e : Option String} (ha : GradFit a)
    (h : a.backward g = .ok (a', e)) : GradFit a' := by
  cases a with
  | dense l =>
    rcases keep_ok h with rfl | ⟨l', h1, rfl, _⟩
    · exact ha
    · obtain ⟨g', h2, h3⟩ := Exec.bind_eq_ok h1
      cases h3
      have : l.grads.input.length = l.inputSize := ha
      exact (Dense.dense1_input_length h2).trans this
  | conv l => rcases keep_ok h with rfl | ⟨l', h1, rfl, _⟩ <;> trivial
  | maxPool l => rcases keep_ok h with rfl | ⟨l', h1, rfl, _⟩ <;> trivial
  | avgPool l => rcases keep_ok h with rfl | ⟨l', h1, rfl, _⟩ <;> trivial
  | act f l => rcases keep_ok h with rfl | ⟨l', h1, rfl, _⟩ <;> trivial
  | dropout mx raw l =>
    rcases keep_ok h with rfl | ⟨l', h1, rfl, _⟩
    · exact ha
    · obtain ⟨g1, h2, h3⟩ := Exec.bind_eq_ok h1
      obtain ⟨g2, h4, h5⟩ := Exec.bind_eq_ok h3
      cases h5
      exact ⟨(Drop.clearAt_length h4).trans ((Drop.arrScale_length h2).trans ha.1), ha.2⟩
  | rnn f f1 l => rcases keep_ok h with rfl | ⟨l', h1, rfl, _⟩ <;> trivial
  | loss f l => rcases keep_ok h with rfl | ⟨l', h1, rfl, _⟩ <;> trivial

/-- What two calls of `backward` have in common. -/
def BackRel (r1 r2 : AnyLayer × Option String) : Prop :=
  blank r1.1 = blank r2.1 ∧ r1.2 = r2.2 ∧ (r1.2 = none → r1.1.lastInputGradient = r2.1.lastInputGradient)

theorem keep_rel {β γ : Type} {a b : AnyLayer} {r1 : Exec β} {r2 : Exec γ} {w1 : β → AnyLayer} {w2 : γ → AnyLayer}
    (h : blank a = blank b)
    (hr : ERel (fun x y => blank (w1 x) = blank (w2 y) ∧ (w1 x).lastInputGradient = (w2 y).lastInputGradient) r1 r2) :
    ERel BackRel (keep a r1 w1) (keep b r2 w2) := by
  cases r1 <;> cases r2 <;> first
    | exact hr.elim
    | exact ⟨hr.1, rfl, fun _ => hr.2⟩
    | trivial
    | (cases hr; exact ⟨h, rfl, fun e => by cases e⟩)

theorem backward_rel {a b : AnyLayer} (h : blank a = blank b) (hs : NonRec a) (ha : GradFit a) (g : List ℝ) :
    ERel BackRel (a.backward g) (b.backward g) := by
  have h0 := h
  cases a <;> cases b <;> simp only [blank, reduceCtorEq, AnyLayer.dense.injEq, AnyLayer.conv.injEq,
    AnyLayer.maxPool.injEq, AnyLayer.avgPool.injEq, AnyLayer.act.injEq, AnyLayer.dropout.injEq,
    AnyLayer.rnn.injEq, AnyLayer.loss.injEq] at h
  case dense.dense a b =>
    refine keep_rel h0 ?_
    obtain ⟨a1, a2, a3, a4, ⟨a5, a6, a7⟩, a8, a9⟩ := a
    obtain ⟨b1, b2, b3, b4, ⟨b5, b6, b7⟩, b8, b9⟩ := b
    simp at h
    obtain ⟨rfl, rfl, rfl, rfl, ⟨h5, rfl, rfl⟩, rfl, rfl⟩ := h
    have ha : a5.length = a1 := ha
    unfold Dense.Layer.backward Dense.dense1
    dsimp only
    rw [Dense.fill_indep (a := b5) (b := a5) a1 0 (by omega) ha]
    refine ERel.bind (Q := fun a b => a = b) (ERel.refl (fun _ => rfl) _) ?_
    rintro x _ rfl
    exact ⟨rfl, rfl⟩
  case conv.conv a b =>
    refine keep_rel h0 ?_
    cases a; cases b
    simp at h
    obtain ⟨rfl, rfl, rfl, rfl, rfl, rfl, rfl, rfl, rfl, rfl, h1, rfl, rfl⟩ := h
    unfold Slide.ConvLayer.backward
    dsimp only
    rw [h1]
    refine ERel.bind (Q := fun a b => a = b) (ERel.refl (fun _ => rfl) _) ?_
    rintro x _ rfl
    refine ERel.bind (Q := fun a b => a = b) (ERel.refl (fun _ => rfl) _) ?_
    rintro y _ rfl
    exact ⟨rfl, rfl⟩
  case maxPool.maxPool a b =>
    refine keep_rel h0 ?_
    cases a; cases b
    simp at h
    obtain ⟨rfl, rfl, rfl, rfl, h1, rfl, rfl⟩ := h
    unfold Slide.maxBackward
    dsimp only
    rw [h1]
    refine ERel.bind (Q := fun a b => a = b) (ERel.refl (fun _ => rfl) _) ?_
    rintro x _ rfl
    exact ⟨rfl, rfl⟩
  case avgPool.avgPool a b =>
    refine keep_rel h0 ?_
    cases a; cases b
    simp at h
    obtain ⟨rfl, rfl, rfl, rfl, h1, rfl, rfl⟩ := h
    unfold Slide.avgBackward
    dsimp only
    rw [h1]
    refine ERel.bind (Q := fun a b => a = b) (ERel.refl (fun _ => rfl) _) ?_
    rintro x _ rfl
    exact ⟨rfl, rfl⟩
  case act.act f a g' b =>
    refine keep_rel h0 ?_
    obtain ⟨a1, a2⟩ := a
    obtain ⟨b1, b2⟩ := b
    simp at h
    obtain ⟨rfl, rfl, h1⟩ := h
    have pw : ∀ f1 : ℝ → ℝ, Act.Layer.backwardWith f1 ⟨a1, a2⟩ g = Act.Layer.backwardWith f1 ⟨a1, b2⟩ g := by
      intro f1
      unfold Act.Layer.backwardWith
      dsimp only
      rw [Act.mapArr_indep f1 a1 h1, h1]
    have fin : ∀ r1 r2 : Exec Act.Layer, r1 = r2 → ERel (fun x y => blank (.act f x) = blank (.act f y) ∧
        (AnyLayer.act f x).lastInputGradient = (AnyLayer.act f y).lastInputGradient) r1 r2 := by
      rintro r1 _ rfl
      exact ERel.refl (fun _ => ⟨rfl, rfl⟩) _
    apply fin
    cases f with
    | relu => exact pw _
    | elu _ => exact pw _
    | tanh => exact pw _
    | sigmoid => exact pw _
    | linear =>
      show Act.linearBackward _ _ = Act.linearBackward _ _
      unfold Act.linearBackward
      dsimp only
      rw [Act.mapArr_indep _ g h1]
    | softmax =>
      show Act.softmaxBackward _ _ = Act.softmaxBackward _ _
      unfold Act.softmaxBackward
      dsimp only
      rw [Act.softmax1Opt_indep a1 g h1]
  case dropout.dropout mx raw a mx' raw' b =>
    refine keep_rel h0 ?_
    obtain ⟨a1, a2, a3, a4, a5, a6, a7⟩ := a
    obtain ⟨b1, b2, b3, b4, b5, b6, b7⟩ := b
    simp at h
    obtain ⟨rfl, rfl, rfl, rfl, rfl, rfl, rfl, rfl, h1⟩ := h
    have ha : a7.length = a1 ∧ _ := ha
    unfold Drop.Layer.backward
    dsimp only
    rw [Drop.arrScale_indep (a := b7) (b := a7) g a3 (by omega) ha.1]
    refine ERel.bind (Q := fun a b => a = b) (ERel.refl (fun _ => rfl) _) ?_
    rintro x _ rfl
    refine ERel.bind (Q := fun a b => a = b) (ERel.refl (fun _ => rfl) _) ?_
    rintro y _ rfl
    exact ⟨rfl, rfl⟩
  case rnn.rnn => exact hs.elim
  case loss.loss f a g' b =>
    refine keep_rel h0 ?_
    obtain ⟨a1, a2, a3, a4, a5, a6, a7, a8, a9, a10⟩ := a
    obtain ⟨b1, b2, b3, b4, b5, b6, b7, b8, b9, b10⟩ := b
    simp at h
    obtain ⟨rfl, rfl, rfl, h1, rfl, rfl⟩ := h
    cases f with
    | mse =>
      show ERel _ (Loss.mseBackward _) (Loss.mseBackward _)
      unfold Loss.mseBackward
      dsimp only
      rw [Loss.mse1_indep a2 a9 a5 h1]
      refine ERel.bind (Q := fun a b => a = b) (ERel.refl (fun _ => rfl) _) ?_
      rintro x _ rfl
      exact ⟨rfl, rfl⟩
    | cce =>
      show ERel _ (Loss.cceBackward _) (Loss.cceBackward _)
      unfold Loss.cceBackward
      dsimp only
      rw [Loss.crossEntropy1_indep a2 a9 a5 h1]
      refine ERel.bind (Q := fun a b => a = b) (ERel.refl (fun _ => rfl) _) ?_
      rintro x _ rfl
      exact ⟨rfl, rfl⟩

theorem blank_setLastInput {a b : AnyLayer} (h : blank a = blank b) (v : List ℝ) :
    blank (a.setLastInput v) = blank (b.setLastInput v) := by
  have e : ∀ a : AnyLayer, blank (a.setLastInput v) = (blank a).setLastInput v := by
    intro a
    cases a <;> rfl
  rw [e, e, h]

/-! ### Training -/

theorem kind_core (a : AnyLayer) : (core a).kind = a.kind := by cases a <;> rfl

theorem Ess.params {a b : AnyLayer} (h : Ess a b) : a.params = b.params := by
  rw [← params_core a, h.1, params_core]

theorem Ess.kind {a b : AnyLayer} (h : Ess a b) : a.kind = b.kind := by
  rw [← kind_core a, h.1, kind_core]

theorem Ess.paramGrads {a b : AnyLayer} (h : Ess a b) : a.paramGrads = b.paramGrads := congrArg Prod.fst h.2.1

theorem extra_setParams (a : AnyLayer) (ps : List (List ℝ)) : extra (a.setParams ps) = extra a := by
  cases a with
  | dense l => match ps with
    | [] | [_] | [_, _] | _ :: _ :: _ :: _ => rfl
  | conv l => match ps with
    | [] | [_] | [_, _] | _ :: _ :: _ :: _ => rfl
  | rnn f f1 l => match ps with
    | [] | [_] | [_, _] | [_, _, _] | [_, _, _, _] | [_, _, _, _, _] | _ :: _ :: _ :: _ :: _ :: _ :: _ => rfl
  | _ => rfl

theorem draws_setParams (a : AnyLayer) (ps : List (List ℝ)) : draws (a.setParams ps) = draws a := by
  unfold AnyLayer.setParams
  split <;> rfl

theorem draws_setParamGrads (a : AnyLayer) (gs : List (List ℝ)) : draws (a.setParamGrads gs) = draws a := by
  unfold AnyLayer.setParamGrads
  split <;> rfl

theorem Ess.setParams {a b : AnyLayer} (h : Ess a b) (ps : List (List ℝ)) : Ess (a.setParams ps) (b.setParams ps) :=
  ⟨by rw [core_setParams', core_setParams', h.1], by rw [extra_setParams, extra_setParams, h.2.1],
    by rw [draws_setParams, draws_setParams, h.2.2]⟩

theorem Ess.setParamGrads {a b : AnyLayer} (h : Ess a b) (gs : List (List ℝ)) :
    Ess (a.setParamGrads gs) (b.setParamGrads gs) := by
  refine ⟨by rw [core_setParamGrads, core_setParamGrads, h.1], ?_,
    by rw [draws_setParamGrads, draws_setParamGrads, h.2.2]⟩
  obtain ⟨h1, h2, _⟩ := h
  cases a <;> cases b <;> simp only [core, reduceCtorEq] at h1
  case dense.dense a b =>
    match gs with
    | [] => exact h2
    | [_] => exact h2
    | [_, _] =>
      have := congrArg (fun z => z.2) h2
      exact Prod.ext rfl this
    | _ :: _ :: _ :: _ => exact h2
  case conv.conv a b =>
    match gs with
    | [] => exact h2
    | [_] => exact h2
    | [_, _] =>
      have := congrArg (fun z => z.2) h2
      exact Prod.ext rfl this
    | _ :: _ :: _ :: _ => exact h2
  case rnn.rnn a b =>
    match gs with
    | [] => exact h2
    | [_] => exact h2
    | [_, _] => exact h2
    | [_, _, _] => exact h2
    | [_, _, _, _] => exact h2
    | [_, _, _, _, _] =>
      have := congrArg (fun z => z.2) h2
      exact Prod.ext rfl this
    | _ :: _ :: _ :: _ :: _ :: _ :: _ => exact h2
  all_goals exact h2

theorem train_rel {σ : Type} (opt : σ → ℝ → ℝ → σ × ℝ) (s : σ) {a b : AnyLayer} (h : Ess a b) :
    (a.train opt s).1.1 = (b.train opt s).1.1 ∧ (a.train opt s).2 = (b.train opt s).2 ∧
      Ess (a.train opt s).1.2 (b.train opt s).1.2 := by
  unfold AnyLayer.train
  dsimp only
  rw [h.kind, h.params, h.paramGrads]
  exact ⟨rfl, rfl, (h.setParams _).setParamGrads _⟩

theorem trainLayers_rel {σ : Type} (opt : σ → ℝ → ℝ → σ × ℝ) : ∀ {as bs : List AnyLayer} (_ : List.Forall₂ Ess as bs)
    (s : σ), (trainLayers opt s as).1.1 = (trainLayers opt s bs).1.1 ∧
      (trainLayers opt s as).2 = (trainLayers opt s bs).2 ∧
      List.Forall₂ Ess (trainLayers opt s as).1.2 (trainLayers opt s bs).1.2 := by
  intro as bs h
  induction h with
  | nil => intro s; exact ⟨rfl, rfl, .nil⟩
  | @cons a b as bs h hs ih =>
    intro s
    obtain ⟨h1, h2, h3⟩ := train_rel opt s h
    unfold trainLayers
    revert h1 h2 h3
    rcases a.train opt s with ⟨⟨s1, a'⟩, e1⟩
    rcases b.train opt s with ⟨⟨s2, b'⟩, e2⟩
    rintro ⟨⟩ ⟨⟩ h3
    cases e1 with
    | ok u =>
      obtain ⟨i1, i2, i3⟩ := ih s1
      exact ⟨i1, i2, .cons h3 i3⟩
    | throw m => exact ⟨rfl, rfl, .cons h3 hs⟩
    | ub => exact ⟨rfl, rfl, .cons h3 hs⟩

end

end Net

end Verif
