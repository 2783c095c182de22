import Mathlib.Tactic.Ring
import Verif.Spec.Origin
import Verif.Proofs.Rescale
import Verif.Proofs.Reorder

/-! Proofs for C117. -/

namespace Verif

namespace Origin

open Verif.Spec Verif.Net Verif.Graph Verif.Rescale

noncomputable section

variable {A : Nat → ℝ}

theorem moved_length (v : List ℝ) : (movedBy A v).length = v.length := by simp [movedBy]

theorem moved_zero (v : List ℝ) : movedBy (fun _ => 0) v = v := by
  refine List.ext_getElem? fun j => ?_
  rw [movedBy, List.getElem?_mapIdx]
  cases v[j]? <;> simp

theorem rd_mv (v : List ℝ) (i : Nat) : SameEnd (fun x x' => x' = A i + x) (rd v i) (rd (movedBy A v) i) := by
  unfold rd movedBy
  rw [List.getElem?_mapIdx]
  cases v[i]? with
  | none => exact .ub
  | some x => exact .ok rfl

theorem wr_mv (v : List ℝ) (i : Nat) {x x' : ℝ} (hx : x' = A i + x) :
    SameEnd (fun r r' => r' = movedBy A r) (wr v i x) (wr (movedBy A v) i x') := by
  subst hx
  unfold wr
  rw [moved_length]
  split
  · exact .ok (by rw [movedBy, movedBy, List.mapIdx_set])
  · exact .ub

/-- The vectors have the length `n`, and the first `i` entries of the second are those of the first, moved. -/
def Part (A : Nat → ℝ) (n i : Nat) (v v' : List ℝ) : Prop :=
  v.length = n ∧ v'.length = n ∧ ∀ j < i, v'[j]? = (movedBy A v)[j]?

theorem Part.less {n i : Nat} {v v' : List ℝ} (h : Part A n (i + 1) v v') : Part A n i v v' :=
  ⟨h.1, h.2.1, fun j hj => h.2.2 j (by omega)⟩

theorem rd_part {n i : Nat} {v v' : List ℝ} (h : Part A n (i + 1) v v') :
    SameEnd (fun x x' => x' = A i + x) (rd v i) (rd v' i) := by
  have := rd_mv (A := A) v i
  unfold rd at this ⊢
  rw [h.2.2 i (by omega)]
  exact this

theorem wr_part {n i : Nat} {v v' : List ℝ} (h : Part A n i v v') {x x' : ℝ} (hx : x' = A i + x) :
    SameEnd (Part A n (i + 1)) (wr v i x) (wr v' i x') := by
  subst hx
  unfold wr
  rw [h.1, h.2.1]
  split
  · next hi =>
    refine .ok ⟨by simp [h.1], by simp [h.2.1], fun j hj => ?_⟩
    have e : movedBy A (v.set i x) = (movedBy A v).set i (A i + x) := by rw [movedBy, movedBy, List.mapIdx_set]
    rw [e]
    by_cases hij : i = j
    · subst hij
      rw [List.getElem?_set_self (by rw [h.2.1]; exact hi), List.getElem?_set_self (by rw [moved_length, h.1]; exact hi)]
    · rw [List.getElem?_set_ne hij, List.getElem?_set_ne hij]
      exact h.2.2 j (by omega)
  · exact .ub

theorem dense_mv (dst dst' x w b : List ℝ) (k : Nat) (hl : dst'.length = dst.length) :
    SameEnd (fun r r' => r' = movedBy A r) (Dense.dense dst x w b k dst.length)
      (Dense.dense dst' x w (movedBy A b) k dst'.length) := by
  unfold Dense.dense
  rw [hl]
  refine mono (forFrom_same (Part A dst.length) (fun i v v' hv => ?_) dst.length 0 dst dst' ⟨rfl, hl, fun j hj => by omega⟩)
    fun v v' hv => ?_
  · refine bind (rd_mv b i) fun y y' hy => bind (wr_part hv hy) fun v v' hv =>
      loop (P := Part A dst.length (i + 1)) hv fun j v v' hv => ?_
    refine bind (refl _) fun a a' ha => bind (refl _) fun z z' hz => bind (rd_part hv) fun d d' hd => ?_
    subst ha hz hd
    exact wr_part hv.less (by ring)
  · refine List.ext_getElem? fun j => ?_
    by_cases hj : j < dst.length
    · exact hv.2.2 j (by omega)
    · rw [List.getElem?_eq_none (by rw [hv.2.1]; omega), List.getElem?_eq_none (by rw [moved_length, hv.1]; omega)]

/-- The dense layer with biases moved and other outputs. -/
def mvDense (A : Nat → ℝ) (l : Dense.Layer ℝ) (o : List ℝ) : Dense.Layer ℝ :=
  { l with biases := movedBy A l.biases, output := o }

/-- The loss layer with targets and inputs moved. -/
def mvLoss (A : Nat → ℝ) (l : Loss.Layer) : Loss.Layer :=
  { l with target := movedBy A l.target, lastInput := movedBy A l.lastInput }

theorem loss_forward_mv (l : Loss.Layer) (x : List ℝ) :
    SameEnd (fun r r' => r' = (mvLoss A r.1, r.2)) (Loss.mseForward l x) (Loss.mseForward (mvLoss A l) (movedBy A x)) := by
  unfold Loss.mseForward Loss.meanSquaredError
  have ht : (mvLoss A l).target.isEmpty = l.target.isEmpty := by
    show (movedBy A l.target).isEmpty = _
    cases l.target <;> simp [movedBy]
  rw [ht, moved_length]
  split
  · exact .ok rfl
  · refine bind (R := fun a b => b = a) (bind (R := fun a b => b = a) (loop rfl fun i s s' hs => ?_) fun s s' hs => by
      rw [hs]; exact refl _) fun a a' ha => ?_
    · refine bind (rd_mv l.target i) fun y y' hy => bind (rd_mv x i) fun z z' hz => .ok ?_
      rw [hs, hy, hz]
      unfold Loss.squaredError
      ring
    · subst ha
      dsimp only [mvLoss]
      split
      · exact .ok rfl
      · exact .ok rfl

theorem loss_backward_mv (l : Loss.Layer) :
    SameEnd (fun r r' => r' = mvLoss A r) (Loss.mseBackward l) (Loss.mseBackward (mvLoss A l)) := by
  unfold Loss.mseBackward Loss.meanSquaredError1
  dsimp only [mvLoss]
  refine bind (R := fun a b => b = a) (loop rfl fun i v v' hv => ?_) fun r r' hr => .ok (by rw [hr])
  refine bind (rd_mv l.target i) fun y y' hy => bind (rd_mv l.lastInput i) fun z z' hz => ?_
  have e : Loss.squaredError1 y' z' l.invBatch = Loss.squaredError1 y z l.invBatch := by
    rw [hy, hz]; unfold Loss.squaredError1; ring
  rw [hv, e]
  exact refl _

/-! ### Layers -/

/-- Two layers: `E`: connected to a loss, `L`: a loss, `D`: the output has been computed. -/
structure Mv (A : Nat → ℝ) (D E L : Prop) (a a' : AnyLayer) : Prop where
  final : E → ∃ l o, a = .dense l ∧ a' = .dense (mvDense A l o) ∧ o.length = l.output.length ∧
    (D → o = movedBy A l.output)
  loss : L → ∃ l, a = .loss .mse l ∧ a' = .loss .mse (mvLoss A l)
  other : ¬ E → ¬ L → a' = a

/-- Vectors that are moved if `p`. -/
structure MvIf (A : Nat → ℝ) (p : Prop) (v v' : List ℝ) : Prop where
  pos : p → v' = movedBy A v
  neg : ¬ p → v' = v

variable {D E L : Prop} {a a' : AnyLayer}

theorem mv_final (l : Dense.Layer ℝ) (o : List ℝ) (hE : E) (hL : ¬ L) (hl : o.length = l.output.length)
    (hD : D → o = movedBy A l.output) : Mv A D E L (.dense l) (.dense (mvDense A l o)) :=
  ⟨fun _ => ⟨l, o, rfl, rfl, hl, hD⟩, fun h => absurd h hL, fun h => absurd hE h⟩

theorem mv_loss (l : Loss.Layer) (hE : ¬ E) (hL : L) : Mv A D E L (.loss .mse l) (.loss .mse (mvLoss A l)) :=
  ⟨fun h => absurd h hE, fun _ => ⟨l, rfl, rfl⟩, fun _ h => absurd hL h⟩

theorem mv_other (a : AnyLayer) (hE : ¬ E) (hL : ¬ L) : Mv A D E L a a :=
  ⟨fun h => absurd h hE, fun h => absurd h hL, fun _ _ => rfl⟩

/-- Less is known. -/
theorem Mv.weak {D' : Prop} (h : Mv A D E L a a') (hD : D' → D) : Mv A D' E L a a' := by
  refine ⟨fun hE => ?_, h.loss, h.other⟩
  obtain ⟨l, o, e, e', hl, ho⟩ := h.final hE
  exact ⟨l, o, e, e', hl, fun h => ho (hD h)⟩

/-- The three cases. -/
theorem Mv.cases (h : Mv A D E L a a') :
    (E ∧ ¬ L ∧ ∃ l o, a = .dense l ∧ a' = .dense (mvDense A l o) ∧ o.length = l.output.length ∧
      (D → o = movedBy A l.output)) ∨
    (¬ E ∧ L ∧ ∃ l, a = .loss .mse l ∧ a' = .loss .mse (mvLoss A l)) ∨ (¬ E ∧ ¬ L ∧ a' = a) := by
  by_cases hE : E
  · refine .inl ⟨hE, fun hL => ?_, h.final hE⟩
    obtain ⟨_, _, e1, _⟩ := h.final hE
    obtain ⟨_, e, _⟩ := h.loss hL
    rw [e1] at e
    cases e
  · by_cases hL : L
    · exact .inr (.inl ⟨hE, hL, h.loss hL⟩)
    · exact .inr (.inr ⟨hE, hL, h.other hE hL⟩)

/-- After a forward pass: if it has returned, the output has been computed. -/
def Up (A : Nat → ℝ) (D E L : Prop) (p p' : AnyLayer × Option String) : Prop :=
  Mv A (D ∨ p.2 = none) E L p.1 p'.1 ∧ p'.2 = p.2

theorem keep_mv {β : Type} {R : β → β → Prop} {e e' : Exec β} {w : β → AnyLayer} {Q : AnyLayer → AnyLayer → Prop}
    (h : SameEnd R e e') (ha : Q a a') (hw : ∀ r r', R r r' → Q (w r) (w r')) :
    SameEnd (Both Q) (keep a e w) (keep a' e' w) := by
  cases h with
  | ok h => exact .ok ⟨hw _ _ h, rfl⟩
  | throw m => exact .ok ⟨ha, rfl⟩
  | ub => exact .ub

theorem forward_mv (h : Mv A D E L a a') {x x' : List ℝ} (hx : MvIf A L x x') :
    SameEnd (Up A D E L) (a.forward x) (a'.forward x') := by
  obtain ⟨hE, hL, l, o, rfl, rfl, hl, ho⟩ | ⟨hE, hL, l, rfl, rfl⟩ | ⟨hE, hL, rfl⟩ := h.cases
  · rw [hx.neg hL]
    have : SameEnd (fun r r' => r' = mvDense A r (movedBy A r.output)) (Dense.Layer.forward l x)
        (Dense.Layer.forward (mvDense A l o) x) := by
      unfold Dense.Layer.forward
      dsimp only [mvDense]
      exact bind (dense_mv _ _ _ _ _ _ hl) fun o o' ho => .ok (by rw [ho])
    unfold AnyLayer.forward
    dsimp only
    generalize Dense.Layer.forward l x = e at this ⊢
    generalize Dense.Layer.forward (mvDense A l o) x = e' at this ⊢
    cases this with
    | ok hr => rw [hr]; exact .ok ⟨mv_final _ _ hE hL (moved_length _) fun _ => rfl, rfl⟩
    | throw m => exact .ok ⟨h.weak (fun h => h.elim id fun h => by simp at h), rfl⟩
    | ub => exact .ub
  · rw [hx.pos hL]
    exact bind (loss_forward_mv l x) fun r r' hr => .ok (by rw [hr]; exact ⟨mv_loss _ hE hL, rfl⟩)
  · rw [hx.neg hL]
    exact mono (refl _) fun p p' h => by rw [h]; exact ⟨mv_other _ hE hL, rfl⟩

theorem lastInput_mv (h : Mv A D E L a a') {x x' : List ℝ} (hx : MvIf A L x x') :
    Mv A D E L (a.setLastInput x) (a'.setLastInput x') := by
  obtain ⟨hE, hL, l, o, rfl, rfl, hl, ho⟩ | ⟨hE, hL, l, rfl, rfl⟩ | ⟨hE, hL, rfl⟩ := h.cases
  · rw [hx.neg hL]
    exact mv_final { l with lastInput := x } o hE hL hl ho
  · rw [hx.pos hL]
    exact mv_loss { l with lastInput := x } hE hL
  · rw [hx.neg hL]
    exact mv_other _ hE hL

theorem trainingForward_mv (h : Mv A D E L a a') {x x' : List ℝ} (hx : MvIf A L x x') :
    SameEnd (Up A D E L) (a.trainingForward x) (a'.trainingForward x') := by
  have hq := forward_mv (lastInput_mv h hx) hx
  obtain ⟨hE, hL, l, o, rfl, rfl, hl, ho⟩ | ⟨hE, hL, l, rfl, rfl⟩ | ⟨hE, hL, rfl⟩ := h.cases
  · exact hq
  · exact hq
  · rw [hx.neg hL]
    exact mono (refl _) fun p p' h => by rw [h]; exact ⟨mv_other _ hE hL, rfl⟩

theorem backward_mv (h : Mv A D E L a a') (g : List ℝ) :
    SameEnd (Both (Mv A D E L)) (a.backward g) (a'.backward g) := by
  obtain ⟨hE, hL, l, o, rfl, rfl, hl, ho⟩ | ⟨hE, hL, l, rfl, rfl⟩ | ⟨hE, hL, rfl⟩ := h.cases
  · refine keep_mv (R := fun r r' => ∃ gs, r = { l with grads := gs } ∧ r' = { mvDense A l o with grads := gs }) ?_ h
      fun r r' hr => ?_
    · exact bind (refl _) fun g g' hg => .ok ⟨g, rfl, by rw [hg]⟩
    · obtain ⟨gs, rfl, rfl⟩ := hr
      exact mv_final { l with grads := gs } o hE hL hl ho
  · exact keep_mv (loss_backward_mv l) h fun r r' hr => by rw [hr]; exact mv_loss _ hE hL
  · exact mono (refl _) fun p p' h => by rw [h]; exact ⟨mv_other _ hE hL, rfl⟩

theorem output_mv (h : Mv A D E L a a') (hD : D) : SameEnd (MvIf A E) a.lastOutput a'.lastOutput := by
  obtain ⟨hE, hL, l, o, rfl, rfl, hl, ho⟩ | ⟨hE, hL, l, rfl, rfl⟩ | ⟨hE, hL, rfl⟩ := h.cases
  · exact .ok ⟨fun _ => ho hD, fun h => absurd hE h⟩
  · exact .throw _
  · exact mono (refl _) fun v v' hv => ⟨fun h => absurd h hE, fun _ => hv⟩

/-- Whether a layer has an output does not depend on what it is. -/
theorem output_any (h : Mv A D E L a a') : SameEnd (fun _ _ => True) a.lastOutput a'.lastOutput := by
  obtain ⟨hE, hL, l, o, rfl, rfl, hl, ho⟩ | ⟨hE, hL, l, rfl, rfl⟩ | ⟨hE, hL, rfl⟩ := h.cases
  · exact .ok trivial
  · exact .throw _
  · exact mono (refl _) fun v v' hv => trivial

theorem inputGradient_mv (h : Mv A D E L a a') : a'.lastInputGradient = a.lastInputGradient := by
  obtain ⟨hE, hL, l, o, rfl, rfl, hl, ho⟩ | ⟨hE, hL, l, rfl, rfl⟩ | ⟨hE, hL, rfl⟩ := h.cases <;> rfl

/-! ### Models -/

/-- Layer by layer. -/
structure MvAll (A : Nat → ℝ) (D E L : Nat → Prop) (ls ls' : List AnyLayer) : Prop where
  length : ls'.length = ls.length
  twin : ∀ (i : Nat) (a a' : AnyLayer), ls[i]? = some a → ls'[i]? = some a' → Mv A (D i) (E i) (L i) a a'

variable {C F M : Nat → Prop}

theorem MvAll.weak {C' : Nat → Prop} {ls ls' : List AnyLayer} (h : MvAll A C F M ls ls') (hC : ∀ i, C' i → C i) :
    MvAll A C' F M ls ls' := ⟨h.length, fun i a a' e e' => (h.twin i a a' e e').weak (hC i)⟩

theorem rd_all {ls ls' : List AnyLayer} (h : MvAll A C F M ls ls') (i : Nat) :
    SameEnd (Mv A (C i) (F i) (M i)) (rd ls i) (rd ls' i) := by
  unfold rd
  by_cases hi : i < ls.length
  · have hi' : i < ls'.length := by rw [h.length]; exact hi
    have e := List.getElem?_eq_getElem hi
    have e' := List.getElem?_eq_getElem hi'
    have := h.twin i _ _ e e'
    rw [e, e']
    exact .ok this
  · rw [List.getElem?_eq_none (by omega), List.getElem?_eq_none (by rw [h.length]; omega)]
    exact .ub

/-- One more layer has been computed. -/
def grow (C : Nat → Prop) (s : Source × Nat) (i : Nat) : Prop := C i ∨ i = s.2

theorem set_all {ls ls' : List AnyLayer} (h : MvAll A C F M ls ls') {i : Nat} {a a' : AnyLayer}
    (ht : Mv A (C i) (F i) (M i) a a') : MvAll A C F M (ls.set i a) (ls'.set i a') := by
  refine ⟨by simp [h.length], fun j b b' e e' => ?_⟩
  by_cases hj : i = j
  · subst hj
    obtain ⟨h1, h2⟩ := List.getElem?_eq_some_iff.mp e
    obtain ⟨h1', h2'⟩ := List.getElem?_eq_some_iff.mp e'
    rw [List.getElem_set_self] at h2 h2'
    subst h2 h2'
    exact ht
  · rw [List.getElem?_set_ne hj] at e e'
    exact h.twin j b b' e e'

theorem set_grow {ls ls' : List AnyLayer} (h : MvAll A C F M ls ls') {s : Source × Nat} {a a' : AnyLayer}
    (ht : Mv A True (F s.2) (M s.2) a a') : MvAll A (grow C s) F M (ls.set s.2 a) (ls'.set s.2 a') := by
  refine ⟨by simp [h.length], fun j b b' e e' => ?_⟩
  by_cases hj : s.2 = j
  · subst hj
    obtain ⟨h1, h2⟩ := List.getElem?_eq_some_iff.mp e
    obtain ⟨h1', h2'⟩ := List.getElem?_eq_some_iff.mp e'
    rw [List.getElem_set_self] at h2 h2'
    subst h2 h2'
    exact ht.weak fun _ => trivial
  · rw [List.getElem?_set_ne hj] at e e'
    exact (h.twin j b b' e e').weak fun hg => hg.elim id fun h => absurd h.symm hj

/-- The value of a source is moved if the source is the output of a layer that is connected to a loss. -/
def Moves (F : Nat → Prop) : Source → Prop
  | .external => False
  | .output i => F i

/-- The value of the source has been computed. -/
def Known (C : Nat → Prop) : Source → Prop
  | .external => True
  | .output i => C i

theorem value_mv {ls ls' : List AnyLayer} (h : MvAll A C F M ls ls') (x : List ℝ) (s : Source) (hs : Known C s) :
    SameEnd (MvIf A (Moves F s)) (value ls x s) (value ls' x s) := by
  cases s with
  | external => exact .ok ⟨fun h => h.elim, fun _ => rfl⟩
  | output i => exact bind (rd_all h i) fun a a' ha => output_mv ha hs

theorem each_in {σ τ β : Type} {R : σ → τ → Prop} {f : σ → β → Exec (σ × Option String)}
    {f' : τ → β → Exec (τ × Option String)} :
    ∀ (bs : List β) (s : σ) (t : τ), (∀ b ∈ bs, ∀ s t, R s t → SameEnd (Both R) (f s b) (f' t b)) → R s t →
      SameEnd (Both R) (each f bs s) (each f' bs t) := by
  intro bs
  induction bs with
  | nil => intro s t _ h; exact .ok ⟨h, rfl⟩
  | cons b bs ih =>
    intro s t hf h
    refine bind (hf b (by simp) s t h) fun p p' hp => ?_
    obtain ⟨q, m⟩ := p
    obtain ⟨q', m'⟩ := p'
    obtain ⟨h1, h2⟩ := hp
    dsimp only at h1 h2
    subst h2
    cases m' with
    | none => exact ih _ _ (fun b hb => hf b (by simp [hb])) h1
    | some m => exact .ok ⟨h1, rfl⟩

/-- Every value is computed before it is used. -/
def Ready (C : Nat → Prop) : List (Source × Nat) → Prop
  | [] => True
  | s :: ss => Known C s.1 ∧ Ready (grow C s) ss

/-- `W` holds in any case, and `R` if there was no exception. -/
def Went {σ τ : Type} (W R : σ → τ → Prop) (p : σ × Option String) (p' : τ × Option String) : Prop :=
  W p.1 p'.1 ∧ p'.2 = p.2 ∧ (p.2 = none → R p.1 p'.1)

theorem each_grow {σ τ : Type} {R : (Nat → Prop) → σ → τ → Prop} {W : σ → τ → Prop} {Q : Source × Nat → Prop}
    {f : σ → Source × Nat → Exec (σ × Option String)} {f' : τ → Source × Nat → Exec (τ × Option String)}
    (hW : ∀ C s t, R C s t → W s t)
    (hf : ∀ C b s t, Q b → Known C b.1 → R C s t → SameEnd (Went W (R (grow C b))) (f s b) (f' t b)) :
    ∀ (bs : List (Source × Nat)) (C : Nat → Prop) (s : σ) (t : τ), Ready C bs → (∀ b ∈ bs, Q b) → R C s t →
      SameEnd (Went W (R (bs.foldl grow C))) (each f bs s) (each f' bs t) := by
  intro bs
  induction bs with
  | nil => intro C s t _ _ h; exact .ok ⟨hW _ _ _ h, rfl, fun _ => h⟩
  | cons b bs ih =>
    intro C s t hr hq h
    refine bind (hf C b s t (hq b (by simp)) hr.1 h) fun p p' hp => ?_
    obtain ⟨q, m⟩ := p
    obtain ⟨q', m'⟩ := p'
    obtain ⟨h1, h2, h3⟩ := hp
    dsimp only at h1 h2 h3
    subst h2
    cases m' with
    | none => exact ih _ _ _ hr.2 (fun b hb => hq b (by simp [hb])) (h3 rfl)
    | some m => exact .ok ⟨h1, rfl, fun h => by cases h⟩

theorem next_went {σ τ σ' τ' : Type} {W R : σ → τ → Prop} {S : σ' → τ' → Prop} {r : Exec (σ × Option String)}
    {r' : Exec (τ × Option String)} {fail : σ → σ'} {fail' : τ → τ'} {f : σ → Exec (σ' × Option String)}
    {f' : τ → Exec (τ' × Option String)} (h : SameEnd (Went W R) r r') (hfail : ∀ s t, W s t → S (fail s) (fail' t))
    (hf : ∀ s t, R s t → SameEnd (Both S) (f s) (f' t)) : SameEnd (Both S) (next r fail f) (next r' fail' f') := by
  refine bind h fun p p' hp => ?_
  obtain ⟨q, m⟩ := p
  obtain ⟨q', m'⟩ := p'
  obtain ⟨h1, h2, h3⟩ := hp
  dsimp only at h1 h2 h3
  subst h2
  cases m' with
  | none => exact hf _ _ (h3 rfl)
  | some m => exact .ok ⟨hfail _ _ h1, rfl⟩

theorem if_iff {p q : Prop} (h : p ↔ q) {v v' : List ℝ} (hv : MvIf A p v v') : MvIf A q v v' :=
  ⟨fun hq => hv.pos (h.mpr hq), fun hq => hv.neg fun hp => hq (h.mp hp)⟩

/-- Nothing has been computed yet. -/
def none_ (_ : Nat) : Prop := False

theorem forwardAt_mv (x : List ℝ) {ls ls' : List AnyLayer} (s : Source × Nat) (hs : Moves F s.1 ↔ M s.2)
    (hk : Known C s.1) (h : MvAll A C F M ls ls') :
    SameEnd (Went (MvAll A none_ F M) (MvAll A (grow C s) F M)) (forwardAt x ls s) (forwardAt x ls' s) := by
  unfold forwardAt
  have hv := value_mv h x s.1 hk
  have hw : MvAll A none_ F M ls ls' := h.weak fun _ h => h.elim
  generalize value ls x s.1 = e at hv
  generalize value ls' x s.1 = e' at hv
  cases hv with
  | ok hv =>
    exact bind (rd_all h _) fun a a' ha => bind (forward_mv ha (if_iff hs hv)) fun p p' hp =>
      .ok ⟨set_all hw (hp.1.weak fun h => h.elim), hp.2, fun hn => set_grow h (hp.1.weak fun _ => .inr hn)⟩
  | throw m => exact .ok ⟨hw, rfl, fun h => by cases h⟩
  | ub => exact .ub

/-- The state of `step`. -/
structure MvS (A : Nat → ℝ) (F M : Nat → Prop) (C : Nat → Prop) (s s' : Steps) : Prop where
  layers : MvAll A C F M s.layers s'.layers
  from_ : s'.from_ = s.from_
  source : ∀ i q, s.from_[i]? = some (some q) → (Moves F q ↔ M i) ∧ Known C q

/-- The layers after `step`. -/
def MvL (A : Nat → ℝ) (F M : Nat → Prop) (s s' : Steps) : Prop := MvAll A none_ F M s.layers s'.layers

theorem MvS.forget {s s' : Steps} (h : MvS A F M C s s') : MvL A F M s s' := h.layers.weak fun _ h => h.elim

theorem known_grow {s : Source × Nat} {q : Source} (h : Known C q) : Known (grow C s) q := by
  cases q with
  | external => exact h
  | output i => exact .inl h

theorem trainAt_mv (x : List ℝ) {st st' : Steps} (s : Source × Nat) (hs : Moves F s.1 ↔ M s.2)
    (hk : Known C s.1) (h : MvS A F M C st st') :
    SameEnd (Went (MvL A F M) (MvS A F M (grow C s))) (trainAt x st s) (trainAt x st' s) := by
  unfold trainAt
  rw [h.from_]
  have hv := value_mv h.layers x s.1 hk
  have hw := h.forget
  generalize value st.layers x s.1 = e at hv
  generalize value st'.layers x s.1 = e' at hv
  cases hv with
  | ok hv =>
    refine bind (rd_all h.layers _) fun a a' ha => bind (trainingForward_mv ha (if_iff hs hv)) fun p p' hp =>
      .ok ⟨set_all hw (hp.1.weak fun h => h.elim), hp.2, fun hn =>
        ⟨set_grow h.layers (hp.1.weak fun _ => .inr hn), rfl, fun i q e => ?_⟩⟩
    dsimp only at e
    by_cases hi : s.2 = i
    · subst hi
      obtain ⟨h1, h2⟩ := List.getElem?_eq_some_iff.mp e
      rw [List.getElem_set_self] at h2
      cases h2
      exact ⟨hs, known_grow hk⟩
    · rw [List.getElem?_set_ne hi] at e
      exact ⟨(h.source i q e).1, known_grow (h.source i q e).2⟩
  | throw m => exact .ok ⟨hw, rfl, fun h => by cases h⟩
  | ub => exact .ub

theorem follow_mv (x : List ℝ) {st st' : Steps} (h : MvS A F M C st st') (i : Nat) {a a' : AnyLayer}
    (ha : Mv A (C i) (F i) (M i) a a') : SameEnd (Mv A (C i) (F i) (M i)) (follow x st i a) (follow x st' i a') := by
  unfold follow
  rw [h.from_]
  split
  · next s e =>
    exact bind (value_mv h.layers x s (h.source i s e).2) fun v v' hv =>
      .ok (lastInput_mv ha (if_iff (h.source i s e).1 hv))
  · exact .ok ha

theorem backwardAt_mv (x : List ℝ) {st st' : Steps} (h : MvS A F M C st st') (i : Nat) (g : List ℝ) :
    SameEnd (Both (MvS A F M C)) (backwardAt x st i g) (backwardAt x st' i g) := by
  unfold backwardAt
  exact bind (rd_all h.layers i) fun a a' ha => bind (follow_mv x h i ha) fun b b' hb =>
    bind (backward_mv hb g) fun p p' hp => .ok ⟨⟨set_all h.layers hp.1, h.from_, h.source⟩, hp.2⟩

theorem backArcAt_mv (x : List ℝ) {st st' : Steps} (h : MvS A F M C st st') (a : Nat × Nat) :
    SameEnd (Both (MvS A F M C)) (backArcAt x st a) (backArcAt x st' a) := by
  unfold backArcAt
  refine bind (rd_all h.layers _) fun b b' hb => ?_
  rw [inputGradient_mv hb]
  exact backwardAt_mv x h _ _

theorem targetAt_mv (t : List ℝ) {ls ls' : List AnyLayer} {i : Nat} (hi : M i) (h : MvAll A C F M ls ls') :
    SameEnd (Both (MvAll A C F M)) (targetAt t ls i) (targetAt (movedBy A t) ls' i) := by
  unfold targetAt
  refine bind (rd_all h i) fun a a' ha => ?_
  obtain ⟨hE, hL, l, o, rfl, rfl, hl, ho⟩ | ⟨hE, hL, l, rfl, rfl⟩ | ⟨hE, hL, rfl⟩ := ha.cases
  · exact absurd hi hL
  · exact .ok ⟨set_all h (mv_loss { l with target := t } hE hL), rfl⟩
  · exact absurd hi hL

/-- The loops of a call. -/
def sources (g : DLGraph) (arcs : List (Nat × Nat)) : List (Source × Nat) :=
  g.inputs.map (fun i => (Source.external, i)) ++ arcs.map (fun a => (Source.output a.1, a.2))

/-- The arcs of a model in which the layers that are connected to losses are connected to nothing else. -/
structure Ends (g : DLGraph) : Prop where
  inputs : ∀ i ∈ g.inputs, i ∉ g.loss
  train : ∀ a ∈ trainingArcs g, (Final g a.1 ↔ a.2 ∈ g.loss)
  forward : ∀ a ∈ forwardArcs g, (Final g a.1 ↔ a.2 ∈ g.loss)
  readyTrain : Ready none_ (sources g (trainingArcs g))
  readyForward : Ready none_ (sources g (forwardArcs g))

/-- Models layer by layer. -/
structure MvNets (A : Nat → ℝ) (g : DLGraph) (n n' : Net) : Prop where
  graph : n.graph = g
  graph' : n'.graph = g
  layers : MvAll A none_ (Final g) (· ∈ g.loss) n.layers n'.layers

variable {g : DLGraph} {n n' : Net}

theorem sources_iff {arcs : List (Nat × Nat)} (hg : ∀ i ∈ g.inputs, i ∉ g.loss)
    (ha : ∀ a ∈ arcs, (Final g a.1 ↔ a.2 ∈ g.loss)) :
    ∀ s ∈ sources g arcs, (Moves (Final g) s.1 ↔ s.2 ∈ g.loss) := by
  intro s hs
  rcases List.mem_append.mp hs with hs | hs
  · obtain ⟨i, hi, rfl⟩ := List.mem_map.mp hs
    exact ⟨fun h => h.elim, fun h => absurd h (hg i hi)⟩
  · obtain ⟨b, hb, rfl⟩ := List.mem_map.mp hs
    exact ha b hb

theorem grown (C : Nat → Prop) (ss : List (Source × Nat)) (i : Nat) :
    ss.foldl grow C i ↔ C i ∨ i ∈ ss.map Prod.snd := by
  induction ss generalizing C with
  | nil => simp
  | cons s ss ih => rw [List.foldl_cons, ih]; simp [grow, or_assoc]

theorem predict_mv (hc : Ends g) (h : MvNets A g n n') (x : List ℝ) :
    SameEnd (fun r r' => MvNets A g r.1 r'.1 ∧ (FinalOutput g → r'.2 = r.2.map (movedBy A)))
      (n.predict x) (n'.predict x) := by
  unfold Net.predict
  rw [h.graph, h.graph']
  cases e : g.outputs with
  | nil => exact .ok ⟨h, fun _ => rfl⟩
  | cons o os =>
    refine bind (each_grow (R := fun C => MvAll A C (Final g) (· ∈ g.loss)) (W := MvAll A none_ (Final g) (· ∈ g.loss))
      (Q := fun s => (Moves (Final g) s.1 ↔ s.2 ∈ g.loss)) (fun C s t h => h.weak fun _ h => h.elim)
      (fun C s ls ls' hs hk hl => forwardAt_mv x s hs hk hl) _ none_ _ _ hc.readyForward
      (sources_iff hc.inputs hc.forward) h.layers) fun r r' hr => ?_
    obtain ⟨q, m⟩ := r
    obtain ⟨q', m'⟩ := r'
    obtain ⟨h1, h2, h3⟩ := hr
    dsimp only at h1 h2 h3
    subst h2
    cases m' with
    | some m => exact .ok ⟨⟨rfl, rfl, h1⟩, fun _ => rfl⟩
    | none =>
      have h3 := h3 rfl
      refine bind (rd_all h3 o) fun a a' ha => ?_
      by_cases hf : FinalOutput g
      · obtain ⟨hf, hr⟩ := hf o (by rw [e]; rfl)
        have ho := output_mv ha ((grown _ _ o).mpr (.inr ?_))
        · generalize a.lastOutput = u at ho
          generalize a'.lastOutput = u' at ho
          cases ho with
          | ok hv => exact .ok ⟨⟨rfl, rfl, h1⟩, fun _ => by rw [hv.pos hf]; rfl⟩
          | throw m => exact .ok ⟨⟨rfl, rfl, h1⟩, fun _ => rfl⟩
          | ub => exact .ub
        · rw [List.map_append, List.map_map, List.map_map, List.mem_append]
          rcases hr with hr | ⟨i, hr⟩
          · exact .inl (List.mem_map.mpr ⟨o, hr, rfl⟩)
          · exact .inr (List.mem_map.mpr ⟨(i, o), hr, rfl⟩)
      · have ho := output_any ha
        generalize a.lastOutput = u at ho
        generalize a'.lastOutput = u' at ho
        cases ho with
        | ok hv => exact .ok ⟨⟨rfl, rfl, h1⟩, fun h => absurd h hf⟩
        | throw m => exact .ok ⟨⟨rfl, rfl, h1⟩, fun _ => rfl⟩
        | ub => exact .ub

theorem step_mv (hc : Ends g) (h : MvNets A g n n') (x t : List ℝ) :
    SameEnd (Both (MvNets A g)) (n.step x t) (n'.step x (movedBy A t)) := by
  unfold Net.step
  rw [h.graph, h.graph']
  refine Rescale.bind (R := Both (MvL A (Final g) (· ∈ g.loss))) ?_ fun p p' hp =>
    .ok ⟨⟨rfl, rfl, hp.1⟩, hp.2⟩
  refine next_sc (R := MvAll A none_ (Final g) (· ∈ g.loss))
    (each_in _ _ _ (fun i hi ls ls' hl => targetAt_mv t hi hl) h.layers)
    (fun ls ls' hl => hl) fun ls ls' hl => ?_
  refine next_went (each_grow (R := MvS A (Final g) (· ∈ g.loss)) (W := MvL A (Final g) (· ∈ g.loss))
    (Q := fun s => (Moves (Final g) s.1 ↔ s.2 ∈ g.loss)) (fun C s t h => h.forget)
    (fun C s st st' hs hk hl => trainAt_mv x s hs hk hl) _ none_ _ _ hc.readyTrain
    (sources_iff hc.inputs hc.train) ⟨hl, by rw [hl.length], fun i q e => ?_⟩) (fun _ _ h => h) fun st st' hst => ?_
  · dsimp only at e
    rw [List.getElem?_replicate] at e
    split at e <;> cases e
  · refine next_sc (each_in _ _ _ (fun i _ st st' h => backwardAt_mv x h i []) hst)
      (fun _ _ h => h.forget) fun st st' hst => ?_
    exact mono (each_in _ _ _ (fun a _ st st' h => backArcAt_mv x h a) hst) fun p p' h => ⟨h.1.forget, h.2⟩

theorem reset_mv (h : MvNets A g n n') : MvNets A g n.resetScore n'.resetScore := by
  refine ⟨h.graph, h.graph', ?_⟩
  have hl : n'.graph = n.graph := h.graph'.trans h.graph.symm
  refine ⟨by simp [Net.resetScore, h.layers.length], fun i a a' e e' => ?_⟩
  unfold Net.resetScore at e e'
  dsimp only at e e'
  rw [hl] at e'
  rw [List.getElem?_mapIdx] at e e'
  cases k : n.layers[i]? with
  | none => rw [k] at e; cases e
  | some b =>
    cases k' : n'.layers[i]? with
    | none => rw [k'] at e'; cases e'
    | some b' =>
      rw [k] at e
      rw [k'] at e'
      have hb := h.layers.twin i b b' k k'
      obtain ⟨hE, hL, l, o, rfl, rfl, hl, ho⟩ | ⟨hE, hL, l, rfl, rfl⟩ | ⟨hE, hL, rfl⟩ := hb.cases
      · cases e
        cases e'
        exact mv_final l o hE hL hl ho
      · rw [Option.map_some] at e e'
        dsimp only at e e'
        rw [h.graph] at e e'
        have hc : g.loss.contains i = true := List.contains_iff_mem.mpr hL
        rw [if_pos hc] at e e'
        cases e
        cases e'
        exact mv_loss l.resetScore hE hL
      · have : a' = a := Option.some.inj (e'.symm.trans e)
        rw [this]
        exact mv_other a hE hL

/-! ### Optimizers -/

/-- An optimizer whose updates do not depend on where the parameter is. -/
def Steady {σ : Type} (o : σ → ℝ → ℝ → σ × ℝ) : Prop :=
  ∀ s p g δ, o s (δ + p) g = ((o s p g).1, δ + (o s p g).2)

theorem gd_steady (eta : ℝ) : Steady (Opt.gdStep eta) := by
  intro s p g δ
  unfold Opt.gdStep
  rw [add_sub_assoc]

theorem adam_steady (eta b1 b2 eps : ℝ) : Steady (Opt.adamStep eta b1 b2 eps) := by
  intro s p g δ
  unfold Opt.adamStep
  dsimp only
  rw [add_sub_assoc]

/-- Blocks of which block `b` is moved by `B b`. -/
def mvBlocks (B : Nat → Nat → ℝ) (ps : List (List ℝ)) : List (List ℝ) := ps.mapIdx fun b v => movedBy (B b) v

variable {σ : Type} {o : σ → ℝ → ℝ → σ × ℝ} {B : Nat → Nat → ℝ}

theorem lengths_mv (ps : List (List ℝ)) : (mvBlocks B ps).map List.length = ps.map List.length := by
  refine List.ext_getElem? fun i => ?_
  rw [mvBlocks, List.getElem?_map, List.getElem?_map, List.getElem?_mapIdx]
  cases ps[i]? with
  | none => rfl
  | some v => simp [moved_length]

theorem rd_blocks (ps : List (List ℝ)) (b : Nat) :
    SameEnd (fun v v' => v' = movedBy (B b) v) (rd ps b) (rd (mvBlocks B ps) b) := by
  unfold rd mvBlocks
  rw [List.getElem?_mapIdx]
  cases ps[b]? with
  | none => exact .ub
  | some v => exact .ok rfl

theorem wr_blocks (ps : List (List ℝ)) (b : Nat) (v : List ℝ) :
    SameEnd (fun r r' => r' = mvBlocks B r) (wr ps b v) (wr (mvBlocks B ps) b (movedBy (B b) v)) := by
  unfold wr mvBlocks
  rw [List.length_mapIdx]
  split
  · exact .ok (by rw [List.mapIdx_set])
  · exact .ub

/-- The state of training. -/
def MvT (B : Nat → Nat → ℝ) (s s' : Opt.TState σ ℝ) : Prop :=
  s'.opt = s.opt ∧ s'.params = mvBlocks B s.params ∧ s'.grads = s.grads

theorem trainOne_mv (ho : Steady o) (k : Opt.Kind) (i : Nat) {s s' : Opt.TState σ ℝ} (h : MvT B s s') :
    SameEnd (MvT B) (Opt.trainOne o k k i s) (Opt.trainOne o k k i s') := by
  obtain ⟨h1, h2, h3⟩ := h
  unfold Opt.trainOne
  rw [h1, h2, h3]
  unfold Opt.readAt Opt.writeAt
  rw [lengths_mv]
  cases Opt.locate k (s.params.map List.length) i with
  | throw m => exact .throw m
  | ub => exact .ub
  | ok q =>
    obtain ⟨b, off⟩ := q
    dsimp only [Exec.bind_ok]
    refine bind (R := fun p p' => p' = B b off + p)
      (bind (rd_blocks s.params b) fun v v' hv => by rw [hv]; exact rd_mv v off) fun p p' hp => ?_
    refine bind (refl _) fun y y' hy => ?_
    subst hp hy
    rw [ho]
    refine bind (R := fun r r' => r' = mvBlocks B r)
      (bind (rd_blocks s.params b) fun v v' hv => ?_) fun ps ps' hps => bind (refl _) fun gs gs' hgs => .ok ⟨rfl, hps, hgs⟩
    rw [hv]
    refine bind (wr_mv v off rfl) fun v v' hv => ?_
    rw [hv]
    exact wr_blocks _ _ _

theorem trainLoop_mv (ho : Steady o) (k : Opt.Kind) : ∀ (n i : Nat) (s s' : Opt.TState σ ℝ), MvT B s s' →
    MvT B (Opt.trainLoop o k k n i s).state (Opt.trainLoop o k k n i s').state ∧
      (Opt.trainLoop o k k n i s').status = (Opt.trainLoop o k k n i s).status := by
  intro n
  induction n with
  | zero => intro i s s' h; exact ⟨h, rfl⟩
  | succ n ih =>
    intro i s s' h
    unfold Opt.trainLoop
    have := trainOne_mv ho k i h
    generalize Opt.trainOne o k k i s = e at this
    generalize Opt.trainOne o k k i s' = e' at this
    cases this with
    | ok h => exact ih _ _ _ h
    | throw m => exact ⟨h, rfl⟩
    | ub => exact ⟨h, rfl⟩

/-- Weights are left, biases are moved. -/
def biasOnly (A : Nat → ℝ) (b : Nat) (j : Nat) : ℝ := if b = 1 then A j else 0

theorem dense_blocks (w b : List ℝ) : mvBlocks (biasOnly A) [w, b] = [w, movedBy A b] := by
  have h0 : biasOnly A 0 = fun _ => 0 := rfl
  have h1 : biasOnly A 1 = A := by funext j; simp [biasOnly]
  simp [mvBlocks, h0, h1, moved_zero]

theorem set_dense (l : Dense.Layer ℝ) (o : List ℝ) (ps gs : List (List ℝ)) : ∃ l1,
    ((AnyLayer.dense l).setParams ps).setParamGrads gs = .dense l1 ∧
    ((AnyLayer.dense (mvDense A l o)).setParams (mvBlocks (biasOnly A) ps)).setParamGrads gs = .dense (mvDense A l1 o) ∧
    l1.output = l.output := by
  have hg : ∀ (l : Dense.Layer ℝ), ∃ l1, (AnyLayer.dense l).setParamGrads gs = .dense l1 ∧
      (AnyLayer.dense (mvDense A l o)).setParamGrads gs = .dense (mvDense A l1 o) ∧ l1.output = l.output := by
    intro l
    match gs with
    | [] => exact ⟨_, rfl, rfl, rfl⟩
    | [_] => exact ⟨_, rfl, rfl, rfl⟩
    | [_, _] => exact ⟨_, rfl, rfl, rfl⟩
    | _ :: _ :: _ :: _ => exact ⟨_, rfl, rfl, rfl⟩
  match ps with
  | [] => exact hg l
  | [_] => exact hg l
  | [w, b] =>
    rw [dense_blocks]
    exact hg { l with weights := w, biases := b }
  | _ :: _ :: _ :: _ =>
    unfold mvBlocks
    rw [List.mapIdx_cons, List.mapIdx_cons, List.mapIdx_cons]
    exact hg l

theorem train_mv (ho : Steady o) {D E L : Prop} {a a' : AnyLayer} (h : Mv A D E L a a') (s : σ) :
    (a'.train o s).1.1 = (a.train o s).1.1 ∧ Mv A D E L (a.train o s).1.2 (a'.train o s).1.2 ∧
      (a'.train o s).2 = (a.train o s).2 := by
  obtain ⟨hE, hL, l, o', rfl, rfl, hl, ho'⟩ | ⟨hE, hL, l, rfl, rfl⟩ | ⟨hE, hL, rfl⟩ := h.cases
  · unfold AnyLayer.train Opt.trainSelf
    obtain ⟨⟨h1, h2, h3⟩, h4⟩ := trainLoop_mv (B := biasOnly A) ho (AnyLayer.dense l).kind
      (AnyLayer.dense l).kind.paramCount 0 ⟨s, (AnyLayer.dense l).params, (AnyLayer.dense l).paramGrads⟩
      ⟨s, (AnyLayer.dense (mvDense A l o')).params, (AnyLayer.dense l).paramGrads⟩
      ⟨rfl, (dense_blocks l.weights l.biases).symm, rfl⟩
    refine ⟨h1, ?_, h4⟩
    dsimp only at h2 h3 ⊢
    obtain ⟨l1, e1, e2, e3⟩ := set_dense (A := A) l o'
      (Opt.trainLoop o (AnyLayer.dense l).kind (AnyLayer.dense l).kind (AnyLayer.dense l).kind.paramCount 0
        ⟨s, (AnyLayer.dense l).params, (AnyLayer.dense l).paramGrads⟩).state.params
      (Opt.trainLoop o (AnyLayer.dense l).kind (AnyLayer.dense l).kind (AnyLayer.dense l).kind.paramCount 0
        ⟨s, (AnyLayer.dense l).params, (AnyLayer.dense l).paramGrads⟩).state.grads
    rw [← h2, ← h3] at e2
    rw [e1]
    exact (congrArg (Mv A D E L (.dense l1)) e2).mpr (mv_final l1 o' hE hL (by rw [e3]; exact hl) (by rw [e3]; exact ho'))
  · exact ⟨rfl, mv_loss l hE hL, rfl⟩
  · exact ⟨rfl, mv_other _ hE hL, rfl⟩

theorem trainLayers_mv (ho : Steady o) : ∀ (ls ls' : List AnyLayer) (C F M : Nat → Prop) (s : σ), MvAll A C F M ls ls' →
    (trainLayers o s ls').1.1 = (trainLayers o s ls).1.1 ∧
      MvAll A C F M (trainLayers o s ls).1.2 (trainLayers o s ls').1.2 ∧
      (trainLayers o s ls').2 = (trainLayers o s ls).2 := by
  intro ls
  induction ls with
  | nil =>
    intro ls' C F M s h
    have : ls' = [] := List.eq_nil_of_length_eq_zero h.length
    subst this
    exact ⟨rfl, h, rfl⟩
  | cons a ls ih =>
    intro ls' C F M s h
    obtain _ | ⟨a', ls'⟩ := ls'
    · cases h.length
    have ha := h.twin 0 a a' rfl rfl
    have ht : MvAll A (fun i => C (i + 1)) (fun i => F (i + 1)) (fun i => M (i + 1)) ls ls' :=
      ⟨Nat.succ.inj h.length, fun i b b' e e' => h.twin (i + 1) b b' e e'⟩
    have cons : ∀ {b b' : AnyLayer} {rs rs' : List AnyLayer}, Mv A (C 0) (F 0) (M 0) b b' →
        MvAll A (fun i => C (i + 1)) (fun i => F (i + 1)) (fun i => M (i + 1)) rs rs' → MvAll A C F M (b :: rs) (b' :: rs') := by
      intro b b' rs rs' hb hr
      refine ⟨by simp [hr.length], fun i u u' e e' => ?_⟩
      cases i with
      | zero => cases e; cases e'; exact hb
      | succ i => exact hr.twin i u u' e e'
    unfold trainLayers
    obtain ⟨h1, h2, h3⟩ := train_mv ho ha s
    generalize a.train o s = r at h1 h2 h3 ⊢
    generalize a'.train o s = r' at h1 h2 h3 ⊢
    obtain ⟨⟨u, b⟩, e⟩ := r
    obtain ⟨⟨u', b'⟩, e'⟩ := r'
    dsimp only at h1 h2 h3
    subst h1 h3
    cases e' with
    | ok v =>
      obtain ⟨h4, h5, h6⟩ := ih ls' _ _ _ u' ht
      exact ⟨h4, cons h2 h5, h6⟩
    | throw m => exact ⟨rfl, cons h2 ht, rfl⟩
    | ub => exact ⟨rfl, cons h2 ht, rfl⟩

theorem train_model_mv (ho : Steady o) (h : MvNets A g n n') (s : σ) :
    (n'.train o s).1.1 = (n.train o s).1.1 ∧ MvNets A g (n.train o s).1.2 (n'.train o s).1.2 ∧
      (n'.train o s).2 = (n.train o s).2 := by
  obtain ⟨h1, h2, h3⟩ := trainLayers_mv ho n.layers n'.layers _ _ _ s h.layers
  exact ⟨h1, ⟨h.graph, h.graph', h2⟩, h3⟩

/-! ### Histories -/

theorem session_mv (hc : Ends g) (ho : Steady o) : ∀ (cs : List UserCall) (n n' : Net) (s : σ), MvNets A g n n' →
    SameEnd (fun r r' => r'.1.1 = r.1.1 ∧ MvNets A g r.1.2 r'.1.2 ∧ r'.2 = r.2)
      (session o cs (s, n)) (session o (cs.map (movedCall A)) (s, n')) := by
  intro cs
  induction cs with
  | nil => intro n n' s h; exact .ok ⟨rfl, h, rfl⟩
  | cons call cs ih =>
    intro n n' s h
    cases call with
    | predict x => exact bind (predict_mv hc h x) fun r r' hr => ih _ _ _ hr.1
    | resetScore => exact ih _ _ _ (reset_mv h)
    | step x y =>
      refine bind (step_mv hc h x y) fun r r' hr => ?_
      exact bind (ih _ _ _ hr.1) fun q q' hq => .ok ⟨hq.1, hq.2.1, by rw [hq.2.2, hr.2]⟩
    | train =>
      rw [List.map_cons]
      dsimp only [movedCall]
      unfold session
      dsimp only
      obtain ⟨h1, h2, h3⟩ := train_model_mv ho h s
      generalize n.train o s = r at h1 h2 h3 ⊢
      generalize n'.train o s = r' at h1 h2 h3 ⊢
      obtain ⟨⟨u, m⟩, e⟩ := r
      obtain ⟨⟨u', m'⟩, e'⟩ := r'
      dsimp only at h1 h2 h3
      subst h1 h3
      cases e' with
      | ok v => exact bind (ih _ _ _ h2) fun q q' hq => .ok ⟨hq.1, hq.2.1, by rw [hq.2.2]⟩
      | throw v => exact bind (ih _ _ _ h2) fun q q' hq => .ok ⟨hq.1, hq.2.1, by rw [hq.2.2]⟩
      | ub => exact .ub

theorem fit_mv (hc : Ends g) (ho : Steady o) {d d' : Data.Dataset ℝ} (hd : MovedData A d d') (fuel epochs b : Nat)
    (h : MvNets A g n n') (s : σ) :
    SameRun (fun r r' => r'.1 = r.1 ∧ MvNets A g r.2 r'.2)
      (Training.fit o d fuel epochs b (s, n)) (Training.fit o d' fuel epochs b (s, n')) := by
  unfold Training.fit
  rw [hd.size]
  refine run_sc (Q := fun (r r' : σ × Net) => r'.1 = r.1 ∧ MvNets A g r.2 r'.2) (fun s t h => ?_)
    (fun i s t h => ?_) (fun s t h => ?_) _ _ _ _ _ _ ⟨rfl, h⟩
  · exact .ok ⟨h.1, reset_mv h.2⟩
  · unfold Training.modelOps
    dsimp only
    rw [hd.input]
    refine bind (refl _) fun x x' hx => bind (hd.label i) fun y y' hy => ?_
    subst hx hy
    refine bind (R := MvNets A g) ?_ fun m m' hm => .ok ⟨h.1, hm⟩
    unfold Training.raise
    refine bind (step_mv hc h.2 x' y) fun p p' hp => ?_
    obtain ⟨q, m⟩ := p
    obtain ⟨q', m'⟩ := p'
    obtain ⟨h1, h2⟩ := hp
    dsimp only at h1 h2
    subst h2
    cases m' with
    | none => exact .ok h1
    | some m => exact .throw m
  · unfold Training.modelOps
    dsimp only
    rw [h.1]
    obtain ⟨h1, h2, h3⟩ := train_model_mv ho h.2 s.1
    rw [h3]
    exact bind (refl _) fun u u' _ => .ok ⟨h1, h2⟩

/-! ### Graphs -/

theorem ready_append (C : Nat → Prop) (xs ys : List (Source × Nat)) :
    Ready C (xs ++ ys) ↔ Ready C xs ∧ Ready (xs.foldl grow C) ys := by
  induction xs generalizing C with
  | nil => simp [Ready]
  | cons s xs ih => rw [List.cons_append, Ready, Ready, ih, List.foldl_cons, and_assoc]

/-- The arcs found so far are in order, and the layers to be expanded next are known. -/
def Sorted (C : Nat → Prop) (w : Wave) : Prop :=
  Ready C (w.ret.map fun a => (Source.output a.1, a.2)) ∧ ∀ i ∈ w.next, C i ∨ i ∈ w.ret.map Prod.snd

theorem grown_arcs (C : Nat → Prop) (ret : List (Nat × Nat)) (i : Nat) :
    (ret.map fun a => (Source.output a.1, a.2)).foldl grow C i ↔ C i ∨ i ∈ ret.map Prod.snd := by
  rw [grown, List.map_map]
  rfl

theorem run_ready (succ : Nat → List Nat) (C : Nat → Prop) : ∀ (fuel : Nat) (curr : List Nat) (ret : List (Nat × Nat))
    (done : List Nat) (r : List (Nat × Nat)), Ready C (ret.map fun a => (Source.output a.1, a.2)) →
    (∀ i ∈ curr, C i ∨ i ∈ ret.map Prod.snd) → runLoop succ fuel curr ret done = some r →
    Ready C (r.map fun a => (Source.output a.1, a.2))
  | _, [], ret, _, r, h, _, e => by
    unfold runLoop at e; cases e; exact h
  | 0, _ :: _, _, _, _, _, _, e => by unfold runLoop at e; cases e
  | fuel + 1, l :: ls, ret, done, r, h, hc, e => by
    unfold runLoop at e
    have inner : ∀ (curr : List Nat) (f : Nat) (ts : List Nat) (w : Wave), (C f ∨ f ∈ w.ret.map Prod.snd) →
        Sorted C w → Sorted C (ts.foldl (visitArc curr f) w) ∧
          ∀ i ∈ w.ret.map Prod.snd, i ∈ (ts.foldl (visitArc curr f) w).ret.map Prod.snd := by
      intro curr f ts
      induction ts with
      | nil => intro w _ hw; exact ⟨hw, fun _ h => h⟩
      | cons t ts ih =>
        intro w hf hw
        have up : ∀ i ∈ w.ret.map Prod.snd, i ∈ (visitArc curr f w t).ret.map Prod.snd := by
          intro i hi
          simp only [visitArc, List.map_append, List.mem_append]
          exact .inl hi
        suffices hs : Sorted C (visitArc curr f w t) by
          obtain ⟨k1, k2⟩ := ih (visitArc curr f w t) (hf.imp id (up f)) hs
          exact ⟨k1, fun i hi => k2 i (up i hi)⟩
        refine ⟨?_, fun i hi => ?_⟩
        · simp only [visitArc, List.map_append]
          rw [ready_append]
          exact ⟨hw.1, (grown_arcs C w.ret f).mpr hf, trivial⟩
        · have : i ∈ w.next ∨ i = t := by
            simp only [visitArc] at hi
            split at hi
            · rcases List.mem_append.mp hi with hi | hi
              · exact .inl hi
              · exact .inr (List.mem_singleton.mp hi)
            · exact .inl hi
          rcases this with hi | rfl
          · exact (hw.2 i hi).imp id (up i)
          · exact .inr (by simp [visitArc])
    have outer : ∀ (curr fs : List Nat) (w : Wave), (∀ f ∈ fs, C f ∨ f ∈ w.ret.map Prod.snd) → Sorted C w →
        Sorted C (fs.foldl (visitLayer succ curr) w) := by
      intro curr fs
      induction fs with
      | nil => intro w _ hw; exact hw
      | cons f fs ih =>
        intro w hf hw
        obtain ⟨k1, k2⟩ := inner curr f (succ f) w (hf f (by simp)) hw
        exact ih _ (fun i hi => (hf i (by simp [hi])).imp id (k2 i)) k1
    have := outer (l :: ls) (l :: ls) ⟨ret, [], done⟩ hc ⟨h, by simp⟩
    exact run_ready succ C fuel _ _ _ r this.1 this.2 e

theorem ready_weak {C C' : Nat → Prop} (h : ∀ i, C i → C' i) : ∀ ss, Ready C ss → Ready C' ss := by
  intro ss
  induction ss generalizing C C' with
  | nil => exact id
  | cons s ss ih =>
    intro hr
    refine ⟨?_, ih (fun i hi => hi.imp (h i) id) hr.2⟩
    have := hr.1
    revert this
    cases s.1 with
    | external => exact id
    | output i => exact h i

theorem ready_inputs (C : Nat → Prop) (is : List Nat) : Ready C (is.map fun i => (Source.external, i)) := by
  induction is generalizing C with
  | nil => trivial
  | cons i is ih => exact ⟨trivial, ih _⟩

theorem ready_sources {arcs : List (Nat × Nat)}
    (h : Ready (· ∈ g.inputs) (arcs.map fun a => (Source.output a.1, a.2))) : Ready none_ (sources g arcs) := by
  unfold sources
  rw [ready_append]
  refine ⟨ready_inputs _ _, ready_weak (fun i hi => (grown _ _ i).mpr (.inr ?_)) _ h⟩
  rw [List.map_map]
  exact List.mem_map.mpr ⟨i, hi, rfl⟩

theorem ends_built (hj : Joined g) (hin : ∀ i ∈ g.inputs, i ∉ g.loss)
    (he : ∀ i j, Final g i → j ∈ successors g.training i → j ∈ g.loss) : Ends g := by
  refine ⟨hin, fun a ha => ?_, fun a ha => ?_, ready_sources ?_, ready_sources ?_⟩
  · have := trainingArcs_arc g a ha
    exact ⟨fun h => he _ _ h this, fun h => ⟨a.2, h, this⟩⟩
  · have hf : a.2 ∈ successors g.forward a.1 := by
      revert a
      unfold forwardArcs
      cases e : g.forwardRun (g.forward.length + 2) with
      | none => simp
      | some r => intro a ha; exact run_arcs _ _ _ _ _ r (by simp) e a ha
    have := hj.forward _ _ hf
    exact ⟨fun h => he _ _ h this, fun h => ⟨a.2, h, this⟩⟩
  · unfold trainingArcs
    cases e : g.trainingRun (g.training.length + 2) with
    | none => trivial
    | some r => exact run_ready _ _ _ _ [] _ r trivial (fun i hi => .inl hi) e
  · unfold forwardArcs
    cases e : g.forwardRun (g.forward.length + 2) with
    | none => trivial
    | some r => exact run_ready _ _ _ _ [] _ r trivial (fun i hi => .inl hi) e

end

end Origin

end Verif
