import Verif.Proofs.ShapeSession

/-!
Two models that differ only in the parameter gradients accumulated so far accumulate the same amounts.
-/

namespace Verif

/-- Add `d i` to the `i`-th value. -/
def plus (d : Nat → ℝ) (v : List ℝ) : List ℝ := v.mapIdx fun i a => a + d i

theorem plus_length (d : Nat → ℝ) (v : List ℝ) : (plus d v).length = v.length := by simp [plus]

theorem plus_getElem? (d : Nat → ℝ) (v : List ℝ) (i : Nat) : (plus d v)[i]? = v[i]?.map (· + d i) := by
  simp [plus]

theorem rd_plus (d : Nat → ℝ) (v : List ℝ) (i : Nat) :
    ERel (fun a b => b = a + d i) (rd v i) (rd (plus d v) i) := by
  unfold rd
  rw [plus_getElem?]
  cases v[i]? with
  | none => trivial
  | some a => exact rfl

theorem wr_plus (d : Nat → ℝ) (v : List ℝ) (i : Nat) {a b : ℝ} (h : b = a + d i) :
    ERel (fun v' w' => w' = plus d v') (wr v i a) (wr (plus d v) i b) := by
  unfold wr
  rw [plus_length]
  split
  · show List.set _ _ _ = plus d (List.set _ _ _)
    apply List.ext_getElem?
    intro j
    rw [plus_getElem?]
    by_cases e : i = j
    · subst e
      rw [List.getElem?_set_self', List.getElem?_set_self', plus_getElem?, h]
      cases v[i]? <;> rfl
    · rw [List.getElem?_set_ne e, List.getElem?_set_ne e, plus_getElem?]
  · trivial

theorem ERel.same {α : Type} (r : Exec α) : ERel (fun a b => a = b) r r := ERel.refl (fun _ => rfl) r

namespace Dense

/-- The gradient buffers, with `d 0` added to the weight gradients and `d 1` to the bias gradients. -/
def Grads.plus (d : Nat → Nat → ℝ) (g : Grads ℝ) : Grads ℝ :=
  ⟨g.input, Verif.plus (d 0) g.weight, Verif.plus (d 1) g.bias⟩

theorem dense1_plus (d : Nat → Nat → ℝ) (s : Grads ℝ) (g x w : List ℝ) (n m : Nat) :
    ERel (fun a b => b = a.plus d) (dense1 s g x w n m) (dense1 (s.plus d) g x w n m) := by
  unfold dense1
  refine (ERel.same (fill s.input n 0)).bind ?_
  rintro ig _ rfl
  refine forUp_rel (fun _ a b => b = Grads.plus d a) rfl ?_
  rintro i s _ hi rfl
  refine (rd_plus (d 1) s.bias i).bind ?_
  rintro b _ rfl
  refine (ERel.same (rd g i)).bind ?_
  rintro gi _ rfl
  refine (wr_plus (d 1) s.bias i (by ring)).bind ?_
  rintro bg _ rfl
  refine forUp_rel (fun _ a b => b = Grads.plus d a) rfl ?_
  rintro j s _ hj rfl
  refine (rd_plus (d 0) s.weight (i * n + j)).bind ?_
  rintro w0 _ rfl
  refine (ERel.same (rd g i)).bind ?_
  rintro gi _ rfl
  refine (ERel.same (rd x j)).bind ?_
  rintro xj _ rfl
  refine (wr_plus (d 0) s.weight (i * n + j) (by ring)).bind ?_
  rintro wg _ rfl
  refine (ERel.same (rd s.input j)).bind ?_
  rintro i0 _ rfl
  refine (ERel.same (rd w (i * n + j))).bind ?_
  rintro wv _ rfl
  refine (ERel.same (wr s.input j (i0 + gi * wv))).bind ?_
  rintro ig _ rfl
  exact rfl

end Dense

namespace Slide

theorem convBias_rel (g a b : List ℝ) (h : b.length = a.length) (o : Shape3) (n : Nat) :
    ERel (fun a' b' => a'.length = a.length ∧ b'.length = a.length) (convBiasGrads g a o n)
      (convBiasGrads g b o n) := by
  unfold convBiasGrads
  refine forUp_rel (fun _ (a' b' : List ℝ) => a'.length = a.length ∧ b'.length = a.length) ⟨rfl, h⟩ ?_
  rintro f s t hf ⟨h1, h2⟩
  refine (ERel.same _).bind ?_
  rintro sum _ rfl
  unfold wr
  rw [h1, h2]
  split
  · exact ⟨by simp [h1], by simp [h2]⟩
  · trivial

theorem kernelSlide_rel {σ τ : Type} {op : Nat → Nat → Nat → Nat → Int → Int → σ → Exec σ}
    {op' : Nat → Nat → Nat → Nat → Int → Int → τ → Exec τ} (Q : σ → τ → Prop)
    (hop : ∀ a b c d e f s t, Q s t → ERel Q (op a b c d e f s) (op' a b c d e f t))
    (src : Shape3) (k s p : Shape2) {st : σ} {st' : τ} (h : Q st st') :
    ERel Q (kernelSlide op src k s p st) (kernelSlide op' src k s p st') := by
  unfold kernelSlide
  dsimp only
  refine forUp_rel (fun _ => Q) h ?_
  intro r s t _ h
  refine forUp_rel (fun _ => Q) h ?_
  intro c s t _ h
  exact hop _ _ _ _ _ _ _ _ h

theorem convGrad_plus (d : Nat → ℝ) (g src : List ℝ) (ss : Shape3) (k : List ℝ) (ks : Shape2) (n a b c e : Nat)
    (row col : Int) {s t : List ℝ × List ℝ} (h : t = (s.1, plus d s.2)) :
    ERel (fun s t => t = (s.1, plus d s.2)) (convGradOp g src ss k ks n a b c e row col s)
      (convGradOp g src ss k ks n a b c e row col t) := by
  unfold convGradOp
  dsimp only
  refine forUp_rel (fun _ (s t : List ℝ × List ℝ) => t = (s.1, plus d s.2)) h ?_
  rintro f s _ hf rfl
  refine (ERel.same _).bind ?_
  rintro gi _ rfl
  refine forUp_rel (fun _ (s t : List ℝ × List ℝ) => t = (s.1, plus d s.2)) rfl ?_
  rintro ki s _ hki rfl
  dsimp only
  split
  · exact rfl
  refine (ERel.same _).bind ?_
  rintro w _ rfl
  refine (ERel.same _).bind ?_
  rintro i0 _ rfl
  refine (ERel.same _).bind ?_
  rintro ig _ rfl
  refine (ERel.same _).bind ?_
  rintro x _ rfl
  refine (rd_plus d s.2 _).bind ?_
  rintro w0 _ rfl
  refine (wr_plus d s.2 _ (by ring)).bind ?_
  rintro wg _ rfl
  exact rfl

end Slide

namespace Net

open Verif.Spec Verif.Graph

noncomputable section

/-- `b` is `a` with `d` added to its parameter gradients.  The gradients of the biases of a convolution, which
training overwrites, are arbitrary. -/
def Off (d : Nat → Nat → ℝ) : AnyLayer → AnyLayer → Prop
  | .dense l, b => b = .dense { l with grads := l.grads.plus d }
  | .conv l, b => ∃ c : List ℝ, c.length = l.biasGrads.length ∧
      b = .conv { l with weightGrads := plus (d 0) l.weightGrads, biasGrads := c }
  | a, b => b = a

theorem Off.output {d : Nat → Nat → ℝ} {a b : AnyLayer} (h : Off d a b) : b.lastOutput = a.lastOutput := by
  cases a with
  | dense l => have h : b = _ := h; subst h; rfl
  | conv l => obtain ⟨c, _, rfl⟩ := h; rfl
  | _ => have h : b = _ := h; subst h; rfl

theorem Off.gradient {d : Nat → Nat → ℝ} {a b : AnyLayer} (h : Off d a b) :
    b.lastInputGradient = a.lastInputGradient := by
  cases a with
  | dense l => have h : b = _ := h; subst h; rfl
  | conv l => obtain ⟨c, _, rfl⟩ := h; rfl
  | _ => have h : b = _ := h; subst h; rfl

theorem Off.setLastInput {d : Nat → Nat → ℝ} {a b : AnyLayer} (h : Off d a b) (v : List ℝ) :
    Off d (a.setLastInput v) (b.setLastInput v) := by
  cases a with
  | dense l => have h : b = _ := h; subst h; rfl
  | conv l => obtain ⟨c, h, rfl⟩ := h; exact ⟨c, h, rfl⟩
  | _ => have h : b = _ := h; subst h; rfl

theorem Off.core {d : Nat → Nat → ℝ} {a b : AnyLayer} (h : Off d a b) : core b = core a := by
  cases a with
  | dense l => have h : b = _ := h; subst h; rfl
  | conv l => obtain ⟨c, _, rfl⟩ := h; rfl
  | _ => have h : b = _ := h; subst h; rfl

/-- The same layers up to `d`, and the same exception. -/
def OffR (d : Nat → Nat → ℝ) (r1 r2 : AnyLayer × Option String) : Prop := Off d r1.1 r2.1 ∧ r1.2 = r2.2

theorem keep_off {β γ : Type} {d : Nat → Nat → ℝ} {a b : AnyLayer} (h : Off d a b) {r1 : Exec β} {r2 : Exec γ}
    {w1 : β → AnyLayer} {w2 : γ → AnyLayer} {Q : β → γ → Prop} (hr : ERel Q r1 r2)
    (hw : ∀ x y, Q x y → Off d (w1 x) (w2 y)) : ERel (OffR d) (keep a r1 w1) (keep b r2 w2) := by
  cases r1 <;> cases r2 <;> first
    | exact hr.elim
    | exact ⟨hw _ _ hr, rfl⟩
    | exact ⟨h, congrArg some hr⟩
    | trivial

theorem Off.same {d : Nat → Nat → ℝ} {a b : AnyLayer} (h : Off d a b) (h1 : ∀ l, a ≠ .dense l)
    (h2 : ∀ l, a ≠ .conv l) : b = a := by
  cases a with
  | dense l => exact absurd rfl (h1 l)
  | conv l => exact absurd rfl (h2 l)
  | _ => exact h

theorem Off.refl {d : Nat → Nat → ℝ} {a : AnyLayer} (h1 : ∀ l, a ≠ .dense l)
    (h2 : ∀ l, a ≠ .conv l) : Off d a a := by
  cases a with
  | dense l => exact absurd rfl (h1 l)
  | conv l => exact absurd rfl (h2 l)
  | _ => rfl

theorem off_of_core {d : Nat → Nat → ℝ} {a a' : AnyLayer} (h1 : ∀ l, a ≠ .dense l)
    (h2 : ∀ l, a ≠ .conv l) (hc : core a' = core a) : Off d a' a' := by
  cases a' with
  | dense l => cases a <;> first | exact absurd rfl (h1 _) | simp only [core, reduceCtorEq] at hc
  | conv l => cases a <;> first | exact absurd rfl (h2 _) | simp only [core, reduceCtorEq] at hc
  | _ => rfl

theorem forward_off {d : Nat → Nat → ℝ} {a b : AnyLayer} (h : Off d a b) (x : List ℝ) :
    ERel (OffR d) (a.forward x) (b.forward x) := by
  by_cases hd : ∃ l, a = .dense l
  · obtain ⟨l, rfl⟩ := hd
    have h' : b = _ := h
    subst h'
    refine keep_off h (Q := fun l1 l2 => l2 = { l1 with grads := l1.grads.plus d }) ?_ (by rintro x _ rfl; rfl)
    show ERel _ (Dense.dense _ _ _ _ _ _ >>= _) (Dense.dense _ _ _ _ _ _ >>= _)
    refine (ERel.same _).bind ?_
    rintro o _ rfl
    exact rfl
  · by_cases hc : ∃ l, a = .conv l
    · obtain ⟨l, rfl⟩ := hc
      have h' := h
      obtain ⟨c, hc, rfl⟩ := h'
      refine keep_off h (Q := fun l1 l2 => c.length = l1.biasGrads.length ∧
        l2 = { l1 with weightGrads := plus (d 0) l1.weightGrads, biasGrads := c }) ?_
        (by rintro x _ ⟨h, rfl⟩; exact ⟨c, h, rfl⟩)
      show ERel _ (Slide.crossCorrelation _ _ _ _ _ _ _ _ >>= _) (Slide.crossCorrelation _ _ _ _ _ _ _ _ >>= _)
      refine (ERel.same _).bind ?_
      rintro o _ rfl
      exact ⟨hc, rfl⟩
    · have hd : ∀ l, a ≠ .dense l := fun l e => hd ⟨l, e⟩
      have hc : ∀ l, a ≠ .conv l := fun l e => hc ⟨l, e⟩
      rw [h.same hd hc]
      refine (ERel.ok_left (ERel.same (a.forward x))).mono ?_
      rintro r _ ⟨rfl, e, _⟩
      exact ⟨off_of_core hd hc (core_forward e), rfl⟩

theorem trainingForward_off {d : Nat → Nat → ℝ} {a b : AnyLayer} (h : Off d a b) (x : List ℝ) :
    ERel (OffR d) (a.trainingForward x) (b.trainingForward x) := by
  cases a with
  | dropout mx raw l =>
    have h : b = _ := h
    subst h
    refine (ERel.ok_left (ERel.same _)).mono ?_
    rintro r _ ⟨rfl, e, _⟩
    rcases keep_ok e with h | ⟨l', _, h, _⟩
    · rw [show r = (r.1, r.2) from rfl, h]; exact ⟨rfl, rfl⟩
    · rw [show r = (r.1, r.2) from rfl, h]; exact ⟨rfl, rfl⟩
  | dense l =>
    have h' := forward_off (h.setLastInput x) x
    have h : b = _ := h
    subst h
    exact h'
  | conv l =>
    have h' := forward_off (h.setLastInput x) x
    obtain ⟨c, _, rfl⟩ := h
    exact h'
  | _ =>
    have h' := forward_off (h.setLastInput x) x
    have h : b = _ := h
    subst h
    exact h'

theorem backward_off {d : Nat → Nat → ℝ} {a b : AnyLayer} (h : Off d a b) (g : List ℝ) :
    ERel (OffR d) (a.backward g) (b.backward g) := by
  by_cases hd : ∃ l, a = .dense l
  · obtain ⟨l, rfl⟩ := hd
    have h' : b = _ := h
    subst h'
    refine keep_off h (Q := fun l1 l2 => l2 = { l1 with grads := l1.grads.plus d }) ?_ (by rintro x _ rfl; rfl)
    show ERel _ (Dense.dense1 _ _ _ _ _ _ >>= _) (Dense.dense1 _ _ _ _ _ _ >>= _)
    refine (Dense.dense1_plus d l.grads g l.lastInput l.weights l.inputSize g.length).bind ?_
    rintro o _ rfl
    exact rfl
  · by_cases hc : ∃ l, a = .conv l
    · obtain ⟨l, rfl⟩ := hc
      have h' := h
      obtain ⟨c, hc, rfl⟩ := h'
      refine keep_off h (Q := fun l1 l2 => ∃ c' : List ℝ, c'.length = l1.biasGrads.length ∧
        l2 = { l1 with weightGrads := plus (d 0) l1.weightGrads, biasGrads := c' }) ?_
        (by rintro x _ ⟨c', h, rfl⟩; exact ⟨c', h, rfl⟩)
      show ERel _ (Slide.convBiasGrads _ _ _ _ >>= _) (Slide.convBiasGrads _ _ _ _ >>= _)
      refine (Slide.convBias_rel g l.biasGrads c hc l.output l.nFilters).bind ?_
      rintro b1 b2 ⟨h1, h2⟩
      refine (Slide.kernelSlide_rel (fun s t => t = (s.1, plus (d 0) s.2)) ?_ l.input l.kernel l.stride l.padding
        (st := (List.replicate l.inputGrads.length 0, l.weightGrads))
        (st' := (List.replicate l.inputGrads.length 0, plus (d 0) l.weightGrads)) rfl).bind ?_
      · intro a b c e f f' s t h
        exact Slide.convGrad_plus (d 0) _ _ _ _ _ _ _ _ _ _ _ _ h
      · rintro r _ rfl
        exact ⟨b2, h2.trans h1.symm, rfl⟩
    · have hd : ∀ l, a ≠ .dense l := fun l e => hd ⟨l, e⟩
      have hc : ∀ l, a ≠ .conv l := fun l e => hc ⟨l, e⟩
      rw [h.same hd hc]
      refine (ERel.ok_left (ERel.same (a.backward g))).mono ?_
      rintro r _ ⟨rfl, e, _⟩
      exact ⟨off_of_core hd hc (core_backward e), rfl⟩

/-! ### States -/

/-- Two lists of layers that differ by `d`. -/
structure LsOff (d : Nat → Nat → Nat → ℝ) (ls ls' : List AnyLayer) : Prop where
  length : ls.length = ls'.length
  off : ∀ (i : Nat) (a b : AnyLayer), ls[i]? = some a → ls'[i]? = some b → Off (d i) a b

/-- Two states of `step` that differ by `d`. -/
structure StOff (d : Nat → Nat → Nat → ℝ) (s t : Steps) : Prop where
  layers : LsOff d s.layers t.layers
  same : s.from_ = t.from_

theorem LsOff.set {d : Nat → Nat → Nat → ℝ} {ls ls' : List AnyLayer} (h : LsOff d ls ls') (i : Nat) {a b : AnyLayer}
    (hab : Off (d i) a b) : LsOff d (ls.set i a) (ls'.set i b) := by
  refine ⟨by simpa using h.length, ?_⟩
  intro j x y hx hy
  by_cases e : i = j
  · subst e
    rw [List.getElem?_set_self'] at hx hy
    cases h1 : ls[i]? with
    | none => rw [h1] at hx; cases hx
    | some _ =>
      cases h2 : ls'[i]? with
      | none => rw [h2] at hy; cases hy
      | some _ =>
        rw [h1] at hx
        rw [h2] at hy
        cases hx
        cases hy
        exact hab
  · rw [List.getElem?_set_ne e] at hx hy
    exact h.off j x y hx hy

theorem LsOff.rd {d : Nat → Nat → Nat → ℝ} {ls ls' : List AnyLayer} (h : LsOff d ls ls') (i : Nat) :
    ERel (fun a b => Off (d i) a b) (rd ls i) (rd ls' i) := by
  refine (rd_rel h.length i).mono ?_
  rintro a b ⟨h1, h2⟩
  exact h.off i a b h1 h2

theorem LsOff.value {d : Nat → Nat → Nat → ℝ} {ls ls' : List AnyLayer} (h : LsOff d ls ls') (x : List ℝ) (s : Source) :
    value ls' x s = value ls x s := by
  cases s with
  | external => rfl
  | output j =>
    refine (eq_of_rel ((h.rd j).bind ?_)).symm
    intro a b hab
    rw [hab.output]
    exact ERel.same _

/-- The same state up to `d`, and the same exception. -/
def StOffR (d : Nat → Nat → Nat → ℝ) (r1 r2 : Steps × Option String) : Prop := StOff d r1.1 r2.1 ∧ r1.2 = r2.2

theorem each_off {σ β : Type} {f : σ → β → Exec (σ × Option String)} {Q : σ → σ → Prop}
    (hf : ∀ s t b, Q s t → ERel (fun r1 r2 => Q r1.1 r2.1 ∧ r1.2 = r2.2) (f s b) (f t b)) : ∀ (bs : List β) (s t : σ),
    Q s t → ERel (fun r1 r2 => Q r1.1 r2.1 ∧ r1.2 = r2.2) (each f bs s) (each f bs t)
  | [], s, t, h => ⟨h, rfl⟩
  | b :: bs, s, t, h => by
    refine (hf s t b h).bind ?_
    rintro ⟨s', e⟩ ⟨t', e'⟩ ⟨h1, h2⟩
    dsimp only at h1 h2
    subst h2
    cases e with
    | none => exact each_off hf bs s' t' h1
    | some m => exact ⟨h1, rfl⟩

theorem next_off {σ τ : Type} {Q : σ → σ → Prop} {Q' : τ → τ → Prop} {r1 r2 : Exec (σ × Option String)}
    (h : ERel (fun r1 r2 => Q r1.1 r2.1 ∧ r1.2 = r2.2) r1 r2) {fail : σ → τ} {f : σ → Exec (τ × Option String)}
    (hf : ∀ s t, Q s t → ERel (fun r1 r2 => Q' r1.1 r2.1 ∧ r1.2 = r2.2) (f s) (f t))
    (hfail : ∀ s t, Q s t → Q' (fail s) (fail t)) :
    ERel (fun r1 r2 => Q' r1.1 r2.1 ∧ r1.2 = r2.2) (next r1 fail f) (next r2 fail f) := by
  refine h.bind ?_
  rintro ⟨s', e⟩ ⟨t', e'⟩ ⟨h1, h2⟩
  dsimp only at h1 h2
  subst h2
  cases e with
  | none => exact hf _ _ h1
  | some m => exact ⟨hfail _ _ h1, rfl⟩

theorem targetAt_off {d : Nat → Nat → Nat → ℝ} (t : List ℝ) {ls ls' : List AnyLayer} (h : LsOff d ls ls') (i : Nat) :
    ERel (fun r1 r2 => LsOff d r1.1 r2.1 ∧ r1.2 = r2.2) (targetAt t ls i) (targetAt t ls' i) := by
  refine (h.rd i).bind ?_
  intro a b hab
  cases a with
  | dense l => have e : b = _ := hab; subst e; exact ⟨h, rfl⟩
  | conv l => obtain ⟨c, _, rfl⟩ := hab; exact ⟨h, rfl⟩
  | loss f l => have e : b = _ := hab; subst e; exact ⟨h.set i rfl, rfl⟩
  | _ => have e : b = _ := hab; subst e; exact ⟨h, rfl⟩

theorem trainAt_off {d : Nat → Nat → Nat → ℝ} (x : List ℝ) {st st' : Steps} (h : StOff d st st') (s : Source × Nat) :
    ERel (fun r1 r2 => StOff d r1.1 r2.1 ∧ r1.2 = r2.2) (trainAt x st s) (trainAt x st' s) := by
  unfold trainAt
  rw [h.layers.value]
  cases value st.layers x s.1 with
  | throw m => exact ⟨h, rfl⟩
  | ub => trivial
  | ok v =>
    dsimp only
    refine (h.layers.rd s.2).bind ?_
    intro a b hab
    refine (trainingForward_off hab v).bind ?_
    rintro r1 r2 ⟨h1, h2⟩
    exact ⟨⟨h.layers.set _ h1, by show st.from_.set _ _ = st'.from_.set _ _; rw [h.same]⟩, h2⟩

theorem follow_off {d : Nat → Nat → Nat → ℝ} (x : List ℝ) {st st' : Steps} (h : StOff d st st') (i : Nat)
    {a b : AnyLayer} (hab : Off (d i) a b) : ERel (fun a b => Off (d i) a b) (follow x st i a) (follow x st' i b) := by
  unfold follow
  rw [← h.same]
  split
  · rw [h.layers.value]
    refine (ERel.same _).bind ?_
    rintro v _ rfl
    exact hab.setLastInput v
  · exact hab

theorem backwardAt_off {d : Nat → Nat → Nat → ℝ} (x : List ℝ) {st st' : Steps} (h : StOff d st st') (i : Nat)
    (g : List ℝ) :
    ERel (fun r1 r2 => StOff d r1.1 r2.1 ∧ r1.2 = r2.2) (backwardAt x st i g) (backwardAt x st' i g) := by
  unfold backwardAt
  refine (h.layers.rd i).bind ?_
  intro a b hab
  refine (follow_off x h i hab).bind ?_
  intro a b hab
  refine (backward_off hab g).bind ?_
  rintro r1 r2 ⟨h1, h2⟩
  exact ⟨⟨h.layers.set _ h1, h.same⟩, h2⟩

theorem backArcAt_off {d : Nat → Nat → Nat → ℝ} (x : List ℝ) {st st' : Steps} (h : StOff d st st') (a : Nat × Nat) :
    ERel (fun r1 r2 => StOff d r1.1 r2.1 ∧ r1.2 = r2.2) (backArcAt x st a) (backArcAt x st' a) := by
  unfold backArcAt
  refine (h.layers.rd a.1).bind ?_
  intro l l' hl
  rw [hl.gradient]
  exact backwardAt_off x h a.2 _

/-- What a step adds to the gradients does not depend on what is there. -/
theorem step_off {d : Nat → Nat → Nat → ℝ} {n n' : Net} (hg : n'.graph = n.graph) (h : LsOff d n.layers n'.layers)
    (x t : List ℝ) :
    ERel (fun r1 r2 => LsOff d r1.1.layers r2.1.layers ∧ r1.2 = r2.2) (n.step x t) (n'.step x t) := by
  unfold Net.step
  rw [hg]
  refine ERel.bind (Q := fun r1 r2 : Steps × Option String => StOff d r1.1 r2.1 ∧ r1.2 = r2.2) ?_ ?_
  · refine next_off (Q := LsOff d) (each_off (Q := LsOff d) (fun s t' b h => targetAt_off t h b) _ _ _ h) ?_ ?_
    · intro ls ls' h
      refine next_off (Q := StOff d) (each_off (Q := StOff d) (fun s t' b h => trainAt_off x h b) _ _ _
        ⟨h, by show List.replicate _ _ = List.replicate _ _; rw [h.length]⟩) ?_ (fun _ _ h => h)
      intro s t h
      refine next_off (Q := StOff d) (each_off (Q := StOff d) (fun s t' b h => backwardAt_off x h b []) _ _ _ h) ?_ (fun _ _ h => h)
      intro s t h
      exact each_off (Q := StOff d) (fun s t' b h => backArcAt_off x h b) _ _ _ h
    · intro ls ls' h
      exact ⟨h, rfl⟩
  · rintro r1 r2 ⟨h1, h2⟩
    exact ⟨h1.layers, h2⟩

end

end Net

end Verif
