import Mathlib.Tactic.Ring
import Verif.Spec.Rescale

/-! Proofs for C116. -/

namespace Verif

open Verif.Spec

/-! ### Calls that end in the same way -/

namespace Rescale

theorem bind {α β γ δ : Type} {R : α → β → Prop} {S : γ → δ → Prop} {e : Exec α} {e' : Exec β}
    {f : α → Exec γ} {f' : β → Exec δ} (h : SameEnd R e e') (hf : ∀ a b, R a b → SameEnd S (f a) (f' b)) :
    SameEnd S (e >>= f) (e' >>= f') := by
  cases h with
  | ok h => exact hf _ _ h
  | throw m => exact .throw m
  | ub => exact .ub

theorem refl {α : Type} (e : Exec α) : SameEnd (fun a b => b = a) e e := by
  cases e with
  | ok a => exact .ok rfl
  | throw m => exact .throw m
  | ub => exact .ub

theorem mono {α β : Type} {R S : α → β → Prop} {e : Exec α} {e' : Exec β} (h : SameEnd R e e')
    (hi : ∀ a b, R a b → S a b) : SameEnd S e e' := by
  cases h with
  | ok h => exact .ok (hi _ _ h)
  | throw m => exact .throw m
  | ub => exact .ub

theorem forFrom_same {σ τ : Type} {f : Nat → σ → Exec σ} {f' : Nat → τ → Exec τ} (P : Nat → σ → τ → Prop)
    (hf : ∀ i s t, P i s t → SameEnd (P (i + 1)) (f i s) (f' i t)) :
    ∀ (k i : Nat) (s : σ) (t : τ), P i s t → SameEnd (P (i + k)) (forFrom i k s f) (forFrom i k t f') := by
  intro k
  induction k with
  | zero => intro i s t h; exact .ok h
  | succ k ih =>
    intro i s t h
    unfold forFrom
    refine bind (hf i s t h) fun s' t' h' => ?_
    rw [show i + (k + 1) = i + 1 + k by omega]
    exact ih _ _ _ h'

theorem loop {σ τ : Type} {f : Nat → σ → Exec σ} {f' : Nat → τ → Exec τ} {P : σ → τ → Prop} {n : Nat} {s : σ} {t : τ}
    (h : P s t) (hf : ∀ i s t, P s t → SameEnd P (f i s) (f' i t)) : SameEnd P (forUp n s f) (forUp n t f') :=
  forFrom_same (fun _ => P) (fun i s t h => hf i s t h) n 0 s t h

theorem loopFrom {σ τ : Type} {f : Nat → σ → Exec σ} {f' : Nat → τ → Exec τ} {P : σ → τ → Prop} {i n : Nat} {s : σ}
    {t : τ} (h : P s t) (hf : ∀ i s t, P s t → SameEnd P (f i s) (f' i t)) :
    SameEnd P (forFrom i n s f) (forFrom i n t f') :=
  forFrom_same (fun _ => P) (fun i s t h => hf i s t h) n i s t h

noncomputable section

variable {c : ℝ}

/-- The second vector is `c` times the first. -/
def Sc (c : ℝ) (v v' : List ℝ) : Prop := v' = times c v
/-- The second number is `c` times the first. -/
def ScN (c x x' : ℝ) : Prop := x' = c * x

theorem rd_sc {v v' : List ℝ} (h : Sc c v v') (i : Nat) : SameEnd (ScN c) (rd v i) (rd v' i) := by
  subst h
  unfold rd times
  rw [List.getElem?_map]
  cases v[i]? with
  | none => exact .ub
  | some x => exact .ok rfl

theorem rdI_sc {v v' : List ℝ} (h : Sc c v v') (i : Int) : SameEnd (ScN c) (rdI v i) (rdI v' i) := by
  unfold rdI
  split
  · exact .ub
  · exact rd_sc h _

theorem wr_sc {v v' : List ℝ} (h : Sc c v v') (i : Nat) {x x' : ℝ} (hx : ScN c x x') :
    SameEnd (Sc c) (wr v i x) (wr v' i x') := by
  subst h hx
  unfold wr times
  rw [List.length_map]
  split
  · exact .ok (by simp [Sc, times, List.map_set])
  · exact .ub

theorem sc_zero (n : Nat) : Sc c (List.replicate n 0) (List.replicate n 0) := by simp [Sc, times]

theorem times_length (v : List ℝ) : (times c v).length = v.length := by simp [times]

theorem sc_length {v v' : List ℝ} (h : Sc c v v') : v'.length = v.length := by rw [h, times_length]

theorem scn_zero : ScN c 0 0 := by simp [ScN]

theorem scn_add {x y x' y' : ℝ} (h : ScN c x x') (g : ScN c y y') : ScN c (x + y) (x' + y') := by
  unfold ScN at *; rw [h, g]; ring

theorem scn_mul {x y x' y' : ℝ} (h : ScN c x x') (g : y' = y) : ScN c (x * y) (x' * y') := by
  unfold ScN at *; rw [h, g]; ring

theorem scn_mul' {x y x' y' : ℝ} (h : x' = x) (g : ScN c y y') : ScN c (x * y) (x' * y') := by
  unfold ScN at *; rw [h, g]; ring

/-! ### Dense layers -/

/-- The gradients of a dense layer. -/
structure ScG (c : ℝ) (s s' : Dense.Grads ℝ) : Prop where
  input : Sc c s.input s'.input
  weight : Sc c s.weight s'.weight
  bias : Sc c s.bias s'.bias

theorem dense1_sc {s s' : Dense.Grads ℝ} (h : ScG c s s') {g g' : List ℝ} (hg : Sc c g g') (x w : List ℝ) (k m : Nat) :
    SameEnd (ScG c) (Dense.dense1 s g x w k m) (Dense.dense1 s' g' x w k m) := by
  unfold Dense.dense1 Dense.fill
  refine bind (R := Sc c) (loop h.input fun i v v' hv => wr_sc hv i scn_zero) fun ig ig' hi => ?_
  refine loop ⟨hi, h.weight, h.bias⟩ fun i s s' h => ?_
  refine bind (rd_sc h.bias i) fun b b' hb => bind (rd_sc hg i) fun y y' hy => ?_
  refine bind (wr_sc h.bias i (scn_add hb hy)) fun bg bg' hbg => ?_
  refine loop ⟨h.input, h.weight, hbg⟩ fun j s s' h => ?_
  refine bind (rd_sc h.weight _) fun a a' ha => bind (rd_sc hg i) fun y y' hy => bind (refl _) fun z z' hz => ?_
  refine bind (wr_sc h.weight _ (scn_add ha (scn_mul hy hz))) fun wg wg' hwg => ?_
  refine bind (rd_sc h.input _) fun a a' ha => bind (refl _) fun z z' hz => ?_
  exact bind (wr_sc h.input _ (scn_add ha (scn_mul hy hz))) fun ig ig' hig => .ok ⟨hig, hwg, h.bias⟩

/-! ### Activation layers -/

/-- The first `i` values agree, whatever the others are. -/
def Upto (n i : Nat) (v v' : List ℝ) : Prop := v.length = n ∧ v'.length = n ∧ ∀ j < i, v'[j]? = v[j]?

theorem upto_all {n : Nat} {v v' : List ℝ} (h : Upto n n v v') : v' = v := by
  refine List.ext_getElem? fun j => ?_
  by_cases hj : j < n
  · exact h.2.2 j hj
  · rw [List.getElem?_eq_none (by rw [h.2.1]; omega), List.getElem?_eq_none (by rw [h.1]; omega)]

theorem wr_upto {n i : Nat} {v v' : List ℝ} (h : Upto n i v v') (x : ℝ) :
    SameEnd (Upto n (i + 1)) (wr v i x) (wr v' i x) := by
  unfold wr
  rw [h.1, h.2.1]
  split
  · refine .ok ⟨by rw [List.length_set, h.1], by rw [List.length_set, h.2.1], fun j hj => ?_⟩
    rw [List.getElem?_set, List.getElem?_set, h.1, h.2.1]
    split
    · rfl
    · exact h.2.2 j (by omega)
  · exact .ub

theorem mapArr_same (f : ℝ → ℝ) {n : Nat} {v v' : List ℝ} (h : v.length = n) (h' : v'.length = n) (src : List ℝ) :
    SameEnd (fun r r' => r' = r ∧ r.length = n) (Act.mapArr f v src n) (Act.mapArr f v' src n) := by
  unfold Act.mapArr forUp
  have := forFrom_same (Upto n) (f := fun i dst => do let x ← rd src i; wr dst i (f x))
    (f' := fun i dst => do let x ← rd src i; wr dst i (f x))
    (fun i s t h => bind (refl _) fun x x' hx => by subst hx; exact wr_upto h _) n 0 v v'
    ⟨h, h', fun j hj => absurd hj (Nat.not_lt_zero j)⟩
  exact mono this fun a b h => by
    rw [Nat.zero_add] at h
    exact ⟨upto_all h, h.1⟩

/-- The first `i` values are scaled, the others agree. -/
def Part (c : ℝ) (n i : Nat) (v v' : List ℝ) : Prop :=
  v.length = n ∧ v'.length = n ∧ (∀ j < i, v'[j]? = (v[j]?).map (c * ·)) ∧ ∀ j, i ≤ j → v'[j]? = v[j]?

theorem part_all {n : Nat} {v v' : List ℝ} (h : Part c n n v v') : Sc c v v' := by
  refine List.ext_getElem? fun j => ?_
  rw [times, List.getElem?_map]
  by_cases hj : j < n
  · exact h.2.2.1 j hj
  · rw [List.getElem?_eq_none (by rw [h.2.1]; omega), List.getElem?_eq_none (by rw [h.1]; omega)]
    rfl

theorem mul_part (n : Nat) {g g' : List ℝ} (hg : Sc c g g') (i : Nat) (v v' : List ℝ) (h : Part c n i v v') :
    SameEnd (Part c n (i + 1)) (do let a ← rd v i; let b ← rd g i; wr v i (a * b))
      (do let a ← rd v' i; let b ← rd g' i; wr v' i (a * b)) := by
  have hr : rd v' i = rd v i := by unfold rd; rw [h.2.2.2 i (Nat.le_refl i)]
  rw [hr]
  refine bind (refl _) fun a a' ha => bind (rd_sc hg i) fun b b' hb => ?_
  unfold wr
  rw [h.1, h.2.1]
  split
  · next hi =>
    refine .ok ⟨by rw [List.length_set, h.1], by rw [List.length_set, h.2.1], fun j hj => ?_, fun j hj => ?_⟩
    · rw [List.getElem?_set, List.getElem?_set, h.1, h.2.1]
      by_cases hij : i = j
      · rw [if_pos hij, if_pos hij, if_pos hi, if_pos hi]
        exact congrArg some (scn_mul' ha hb)
      · rw [if_neg hij, if_neg hij]
        exact h.2.2.1 j (by omega)
    · rw [List.getElem?_set_ne (by omega), List.getElem?_set_ne (by omega)]
      exact h.2.2.2 j (by omega)
  · exact .ub

theorem arrMul_sc {n : Nat} {v : List ℝ} (h : v.length = n) {g g' : List ℝ} (hg : Sc c g g') :
    SameEnd (fun r r' => Sc c r r' ∧ r.length = n) (Act.arrMulInPlace v g n) (Act.arrMulInPlace v g' n) := by
  unfold Act.arrMulInPlace forUp
  exact mono (forFrom_same (Part c n) (mul_part n hg) n 0 v v
    ⟨h, h, fun j hj => absurd hj (Nat.not_lt_zero j), fun _ _ => rfl⟩) fun a b h => by
      rw [Nat.zero_add] at h
      exact ⟨part_all h, h.1⟩

/-- Activation layers whose input gradients are scaled. -/
def ScA (c : ℝ) (l l' : Act.Layer) : Prop := l'.output = l.output ∧ Sc c l.inputGradients l'.inputGradients

theorem backwardWith_sc (f1 : ℝ → ℝ) {l l' : Act.Layer} (h : ScA c l l') {g g' : List ℝ} (hg : Sc c g g') :
    SameEnd (ScA c) (l.backwardWith f1 g) (l'.backwardWith f1 g') := by
  unfold Act.Layer.backwardWith
  rw [sc_length h.2, h.1]
  refine bind (mapArr_same f1 rfl (sc_length h.2) _) fun a a' ha => ?_
  rw [ha.1]
  exact bind (arrMul_sc ha.2 hg) fun r r' hr => .ok ⟨rfl, hr.1⟩

theorem act_sc (f : Net.ActFn) {l l' : Act.Layer} (h : ScA c l l') {g g' : List ℝ} (hg : Sc c g g') :
    SameEnd (ScA c) (f.backward l g) (f.backward l' g') := by
  cases f with
  | relu => exact backwardWith_sc _ h hg
  | elu a => exact backwardWith_sc _ h hg
  | tanh => exact backwardWith_sc _ h hg
  | sigmoid => exact backwardWith_sc _ h hg
  | linear =>
    show SameEnd (ScA c) (Act.linearBackward l g) (Act.linearBackward l' g')
    unfold Act.linearBackward Act.mapArr
    rw [sc_length h.2]
    exact bind (R := Sc c) (loop h.2 fun i v v' hv => bind (rd_sc hg i) fun x x' hx => wr_sc hv i hx)
      fun r r' hr => .ok ⟨h.1, hr⟩
  | softmax =>
    show SameEnd (ScA c) (Act.softmaxBackward l g) (Act.softmaxBackward l' g')
    unfold Act.softmaxBackward Act.softmax1OptNoCheck
    rw [sc_length h.2, h.1]
    refine bind (R := Sc c) (loop h.2 fun i v v' hv => ?_) fun r r' hr => .ok ⟨rfl, hr⟩
    refine bind (wr_sc hv i scn_zero) fun v v' hv => loop hv fun j v v' hv => ?_
    refine bind (refl _) fun a a' ha => bind (refl _) fun b b' hb => bind (rd_sc hg j) fun y y' hy => ?_
    refine bind (rd_sc hv i) fun d d' hd => ?_
    subst ha hb
    exact wr_sc hv i (scn_add hd (scn_mul' rfl hy))

/-! ### Dropout and loss layers -/

theorem dropout_sc {l : Drop.Layer} {ig g g' : List ℝ} (h : Sc c l.inputGrad ig) (hg : Sc c g g') :
    SameEnd (fun r r' => r'.1 = { r.1 with inputGrad := times c r.1.inputGrad })
      (l.backward g) (({ l with inputGrad := ig } : Drop.Layer).backward g') := by
  have hclear : ∀ (is : List Nat) (v v' : List ℝ), Sc c v v' → SameEnd (Sc c) (Drop.clearAt is v) (Drop.clearAt is v') := by
    intro is
    induction is with
    | nil => intro v v' h; exact .ok h
    | cons i is ih => intro v v' h; exact bind (wr_sc h i scn_zero) fun v v' h => ih _ _ h
  unfold Drop.Layer.backward Drop.arrScale
  refine bind (R := Sc c) (loop h fun i v v' hv => bind (rd_sc hg i) fun x x' hx => wr_sc hv i (scn_mul hx rfl))
    fun v v' hv => ?_
  refine bind (hclear _ _ _ hv) fun v v' hv => .ok ?_
  rw [show v' = times c v from hv]

/-- A loss layer whose gradients and factor are scaled. -/
def lossScaled (c : ℝ) (l : Loss.Layer) : Loss.Layer :=
  { l with gradients := times c l.gradients, invBatch := c * l.invBatch }

theorem loss_backward_sc (f : Net.LossFn) (l : Loss.Layer) :
    SameEnd (fun r r' => r' = lossScaled c r) (f.backward l) (f.backward (lossScaled c l)) := by
  cases f with
  | mse =>
    show SameEnd _ (Loss.mseBackward l) (Loss.mseBackward (lossScaled c l))
    unfold Loss.mseBackward Loss.meanSquaredError1 lossScaled
    dsimp only
    rw [times_length]
    refine bind (R := Sc c) (loop rfl fun i v v' hv => ?_) fun r r' hr => .ok (by rw [show r' = times c r from hr])
    refine bind (refl _) fun a a' ha => bind (refl _) fun b b' hb => ?_
    subst ha hb
    exact wr_sc hv i (by unfold ScN Loss.squaredError1; ring)
  | cce =>
    show SameEnd _ (Loss.cceBackward l) (Loss.cceBackward (lossScaled c l))
    unfold Loss.cceBackward Loss.crossEntropy1 lossScaled
    dsimp only
    rw [times_length]
    refine bind (R := Sc c) (loop rfl fun i v v' hv => ?_) fun r r' hr => .ok (by rw [show r' = times c r from hr])
    refine bind (refl _) fun a a' ha => bind (refl _) fun b b' hb => ?_
    subst ha hb
    exact wr_sc hv i (by unfold ScN Loss.crossEntropyS1; ring)

theorem loss_forward_sc (f : Net.LossFn) (l : Loss.Layer) (x : List ℝ) :
    SameEnd (fun r r' => r' = (lossScaled c r.1, r.2)) (f.forward l x) (f.forward (lossScaled c l) x) := by
  cases f with
  | mse =>
    show SameEnd _ (Loss.mseForward l x) (Loss.mseForward (lossScaled c l) x)
    unfold Loss.mseForward
    by_cases ht : l.target.isEmpty
    · rw [if_pos ht, if_pos (show (lossScaled c l).target.isEmpty from ht)]
      exact .ok rfl
    · rw [if_neg ht, if_neg (show ¬ (lossScaled c l).target.isEmpty from ht)]
      refine bind (refl _) fun a a' ha => ?_
      subst ha
      dsimp only [lossScaled]
      split
      · exact .ok rfl
      · exact .ok rfl
  | cce =>
    show SameEnd _ (Loss.cceForward l x) (Loss.cceForward (lossScaled c l) x)
    unfold Loss.cceForward
    by_cases ht : l.target.isEmpty
    · rw [if_pos ht, if_pos (show (lossScaled c l).target.isEmpty from ht)]
      exact .ok rfl
    · rw [if_neg ht, if_neg (show ¬ (lossScaled c l).target.isEmpty from ht)]
      refine bind (refl _) fun a a' ha => ?_
      subst ha
      refine bind (refl _) fun m m' hm => ?_
      subst hm
      have key : ∀ (A A' : Exec Nat) (q : Loss.Layer), A' = A →
          SameEnd (fun r r' => r' = (lossScaled c r.1, r.2))
            (match A with
              | .ok active => if m'.2 = active then (pure ({ q with correct := q.correct + 1 }, none) : Exec _)
                  else pure ({ q with incorrect := q.incorrect + 1 }, none)
              | .throw msg => .ok (q, some msg)
              | .ub => .ub)
            (match A' with
              | .ok active => if m'.2 = active then
                    (pure ({ lossScaled c q with correct := q.correct + 1 }, none) : Exec _)
                  else pure ({ lossScaled c q with incorrect := q.incorrect + 1 }, none)
              | .throw msg => .ok (lossScaled c q, some msg)
              | .ub => .ub) := by
        intro A A' q e
        subst e
        cases A' with
        | ok active =>
          dsimp only
          split
          · exact .ok rfl
          · exact .ok rfl
        | throw msg => exact .ok rfl
        | ub => exact .ub
      exact key _ _ { l with loss := a', cumulative := l.cumulative + a' } rfl

/-! ### Convolution and pooling -/

theorem slide_sc {σ τ : Type} {P : σ → τ → Prop} {op : Nat → Nat → Nat → Nat → Int → Int → σ → Exec σ}
    {op' : Nat → Nat → Nat → Nat → Int → Int → τ → Exec τ}
    (ho : ∀ a b r q y x s t, P s t → SameEnd P (op a b r q y x s) (op' a b r q y x t))
    (src : Shape3) (k s p : Shape2) {st : σ} {st' : τ} (h : P st st') :
    SameEnd P (Slide.kernelSlide op src k s p st) (Slide.kernelSlide op' src k s p st') := by
  unfold Slide.kernelSlide
  exact loop h fun r s t h => loop h fun q s t h => ho _ _ _ _ _ _ _ _ h

theorem convBias_sc {g g' b b' : List ℝ} (hg : Sc c g g') (hb : Sc c b b') (o : Shape3) (n : Nat) :
    SameEnd (Sc c) (Slide.convBiasGrads g b o n) (Slide.convBiasGrads g' b' o n) := by
  unfold Slide.convBiasGrads
  refine loop hb fun f v v' hv => ?_
  refine bind (R := ScN c) (loop scn_zero fun r s s' hs => loop hs fun q s s' hs => ?_) fun s s' hs => wr_sc hv f hs
  exact bind (rd_sc hg _) fun y y' hy => .ok (scn_add hs hy)

/-- Pairs of scaled vectors. -/
def ScP (c : ℝ) (s t : List ℝ × List ℝ) : Prop := Sc c s.1 t.1 ∧ Sc c s.2 t.2

theorem conv_sc {g g' : List ℝ} (hg : Sc c g g') (src : List ℝ) (ss : Shape3) (k : List ℝ) (ks : Shape2) (n : Nat)
    (a b r q : Nat) (y x : Int) (s t : List ℝ × List ℝ) (h : ScP c s t) :
    SameEnd (ScP c) (Slide.convGradOp g src ss k ks n a b r q y x s)
      (Slide.convGradOp g' src ss k ks n a b r q y x t) := by
  unfold Slide.convGradOp
  refine loop h fun f s t h => bind (rd_sc hg _) fun u u' hu => loop h fun ki s t h => ?_
  dsimp only
  split
  · exact .ok h
  · refine bind (refl _) fun w w' hw => bind (rdI_sc h.1 _) fun i0 i0' hi0 => ?_
    refine bind (wr_sc h.1 _ (scn_add hi0 (scn_mul' hw hu))) fun ig ig' hig => ?_
    refine bind (refl _) fun z z' hz => bind (rd_sc h.2 _) fun w0 w0' hw0 => ?_
    exact bind (wr_sc h.2 _ (scn_add hw0 (scn_mul' hz hu))) fun wg wg' hwg => .ok ⟨hig, hwg⟩

/-- A convolutional layer with scaled gradients. -/
def convScaled (c : ℝ) (l : Slide.ConvLayer ℝ) : Slide.ConvLayer ℝ :=
  { l with weightGrads := times c l.weightGrads, biasGrads := times c l.biasGrads,
           inputGrads := times c l.inputGrads }

theorem conv_backward_sc (l : Slide.ConvLayer ℝ) {g g' : List ℝ} (hg : Sc c g g') :
    SameEnd (fun r r' => r' = convScaled c r) (l.backward g) ((convScaled c l).backward g') := by
  unfold Slide.ConvLayer.backward convScaled
  dsimp only
  rw [times_length]
  refine bind (convBias_sc hg rfl _ _) fun b b' hb => ?_
  refine bind (slide_sc (P := ScP c) (conv_sc hg _ _ _ _ _) _ _ _ _ ⟨sc_zero _, rfl⟩) fun r r' hr => .ok ?_
  rw [show b' = times c b from hb, show r'.1 = times c r.1 from hr.1, show r'.2 = times c r.2 from hr.2]

theorem max_sc {g g' : List ℝ} (hg : Sc c g g') (src : List ℝ) (ss : Shape3) (ks : Shape2)
    (a b r q : Nat) (y x : Int) (s t : List ℝ) (h : Sc c s t) :
    SameEnd (Sc c) (Slide.maxGradOp g src ss ks a b r q y x s) (Slide.maxGradOp g' src ss ks a b r q y x t) := by
  unfold Slide.maxGradOp
  refine loop h fun f s t h => bind (rd_sc hg _) fun u u' hu => bind (refl _) fun m m' hm => ?_
  subst hm
  refine bind (refl _) fun m m' hm => ?_
  subst hm
  exact bind (rdI_sc h _) fun i0 i0' hi0 => wr_sc h _ (scn_add hi0 hu)

theorem avg_sc {g g' : List ℝ} (hg : Sc c g g') (ss : Shape3) (ks : Shape2)
    (a b r q : Nat) (y x : Int) (s t : List ℝ) (h : Sc c s t) :
    SameEnd (Sc c) (Slide.avgGradOp g ss ks a b r q y x s) (Slide.avgGradOp g' ss ks a b r q y x t) := by
  unfold Slide.avgGradOp
  refine loop h fun f s t h => bind (rd_sc hg _) fun u u' hu => loopFrom h fun ki s t h => ?_
  refine bind (rdI_sc h _) fun i0 i0' hi0 => wr_sc h _ (scn_add hi0 ?_)
  unfold ScN at hu ⊢
  rw [hu, mul_div_assoc]

/-- A pooling layer with scaled gradients. -/
def poolScaled (c : ℝ) (l : Slide.PoolLayer ℝ) : Slide.PoolLayer ℝ := { l with inputGrads := times c l.inputGrads }

theorem max_backward_sc (l : Slide.PoolLayer ℝ) {g g' : List ℝ} (hg : Sc c g g') :
    SameEnd (fun r r' => r' = poolScaled c r) (Slide.maxBackward l g) (Slide.maxBackward (poolScaled c l) g') := by
  unfold Slide.maxBackward poolScaled
  dsimp only
  rw [times_length]
  exact bind (slide_sc (max_sc hg _ _ _) _ _ _ _ (sc_zero _)) fun r r' hr => .ok (by
    rw [show r' = times c r from hr])

theorem avg_backward_sc (l : Slide.PoolLayer ℝ) {g g' : List ℝ} (hg : Sc c g g') :
    SameEnd (fun r r' => r' = poolScaled c r) (Slide.avgBackward l g) (Slide.avgBackward (poolScaled c l) g') := by
  unfold Slide.avgBackward poolScaled
  dsimp only
  rw [times_length]
  exact bind (slide_sc (avg_sc hg _ _) _ _ _ _ (sc_zero _)) fun r r' hr => .ok (by
    rw [show r' = times c r from hr])

/-! ### Recurrent layers -/

/-- Scaled vectors of a certain length. -/
def ScL (c : ℝ) (n : Nat) (v v' : List ℝ) : Prop := Sc c v v' ∧ v.length = n

theorem wr_scl {n : Nat} {v v' : List ℝ} (h : ScL c n v v') (i : Nat) {x x' : ℝ} (hx : ScN c x x') :
    SameEnd (ScL c n) (wr v i x) (wr v' i x') := by
  have := wr_sc h.1 i hx
  revert this
  unfold wr
  rw [sc_length h.1]
  split
  · intro e
    cases e with
    | ok e => exact .ok ⟨e, by rw [List.length_set, h.2]⟩
  · intro _
    exact .ub

theorem arrSum_sc {v v' w w' : List ℝ} (hv : Sc c v v') (hw : Sc c w w') (d s n : Nat) :
    SameEnd (Sc c) (Rnn.arrSumAt v d w s n) (Rnn.arrSumAt v' d w' s n) := by
  unfold Rnn.arrSumAt
  exact loop hv fun i v v' hv => bind (rd_sc hv _) fun a a' ha => bind (rd_sc hw _) fun b b' hb =>
    wr_sc hv _ (scn_add ha hb)

theorem arrSum_scl {m : Nat} {v v' w w' : List ℝ} (hv : ScL c m v v') (hw : Sc c w w') (d s n : Nat) :
    SameEnd (ScL c m) (Rnn.arrSumAt v d w s n) (Rnn.arrSumAt v' d w' s n) := by
  unfold Rnn.arrSumAt
  exact loop hv fun i v v' hv => bind (rd_sc hv.1 _) fun a a' ha => bind (rd_sc hw _) fun b b' hb =>
    wr_scl hv _ (scn_add ha hb)

theorem outer_sc {m m' a a' : List ℝ} (hm : Sc c m m') (ha : Sc c a a') (i : Nat) (b : List ℝ) (j rows cols : Nat) :
    SameEnd (Sc c) (Rnn.outerAcc m a i b j rows cols) (Rnn.outerAcc m' a' i b j rows cols) := by
  unfold Rnn.outerAcc
  exact loop hm fun i v v' hv => loop hv fun j v v' hv => bind (rd_sc hv _) fun x x' hx =>
    bind (rd_sc ha _) fun y y' hy => bind (refl _) fun z z' hz => wr_sc hv _ (scn_add hx (scn_mul hy hz))

theorem tmul_sc {n : Nat} {v v' a a' : List ℝ} (hv : ScL c n v v') (ha : Sc c a a') (w : List ℝ) (i rows cols : Nat) :
    SameEnd (ScL c n) (Rnn.tmulAt v w a i rows cols) (Rnn.tmulAt v' w a' i rows cols) := by
  unfold Rnn.tmulAt
  exact loop hv fun i v v' hv => bind (wr_scl hv _ scn_zero) fun v v' hv => loop hv fun j v v' hv =>
    bind (rd_sc hv.1 _) fun x x' hx => bind (refl _) fun z z' hz => bind (rd_sc ha _) fun y y' hy =>
    wr_scl hv _ (scn_add hx (scn_mul' hz hy))

theorem inputGrad_sc {v v' a a' : List ℝ} (hv : Sc c v v') (ha : Sc c a a') (i : Nat) (w : List ℝ) (rows cols : Nat) :
    SameEnd (Sc c) (Rnn.inputGradAt v i a w rows cols) (Rnn.inputGradAt v' i a' w rows cols) := by
  unfold Rnn.inputGradAt
  exact bind (R := Sc c) (loop hv fun i v v' hv => wr_sc hv _ scn_zero) fun v v' hv =>
    loop hv fun i v v' hv => loop hv fun j v v' hv => bind (rd_sc hv _) fun x x' hx =>
    bind (rd_sc ha _) fun y y' hy => bind (refl _) fun z z' hz => wr_sc hv _ (scn_add hx (scn_mul hy hz))

theorem mapFrom_same (f : ℝ → ℝ) {n : Nat} {v v' : List ℝ} (h : v.length = n) (h' : v'.length = n) (src : List ℝ)
    (o : Nat) :
    SameEnd (fun r r' => r' = r ∧ r.length = n) (Rnn.mapFrom f v src o n) (Rnn.mapFrom f v' src o n) := by
  unfold Rnn.mapFrom forUp
  have := forFrom_same (Upto n) (f := fun i dst => do let x ← rd src (o + i); wr dst i (f x))
    (f' := fun i dst => do let x ← rd src (o + i); wr dst i (f x))
    (fun i s t h => bind (refl _) fun x x' hx => by subst hx; exact wr_upto h _) n 0 v v'
    ⟨h, h', fun j hj => absurd hj (Nat.not_lt_zero j)⟩
  exact mono this fun a b h => by
    rw [Nat.zero_add] at h
    exact ⟨upto_all h, h.1⟩

theorem arrMulInto_sc {n : Nat} {v : List ℝ} (h : v.length = n) {g g' : List ℝ} (hg : Sc c g g') :
    SameEnd (Sc c) (Rnn.arrMulInto v g n) (Rnn.arrMulInto v g' n) := by
  unfold Rnn.arrMulInto forUp
  exact mono (forFrom_same (Part c n) (mul_part n hg) n 0 v v
    ⟨h, h, fun j hj => absurd hj (Nat.not_lt_zero j), fun _ _ => rfl⟩) fun a b h => by
      rw [Nat.zero_add] at h
      exact part_all h

/-- The variables of the loop. -/
structure ScB (c : ℝ) (n : Nat) (s s' : Rnn.BState ℝ) : Prop where
  gbo : Sc c s.gbo s'.gbo
  gho : Sc c s.gho s'.gho
  gbh : Sc c s.gbh s'.gbh
  gih : Sc c s.gih s'.gih
  ghh : Sc c s.ghh s'.ghh
  ig : Sc c s.ig s'.ig
  carry : ScL c n s.carry s'.carry

/-- A recurrent layer with scaled gradients. -/
def rnnScaled (c : ℝ) (l : Rnn.Layer ℝ) : Rnn.Layer ℝ :=
  { l with gih := times c l.gih, ghh := times c l.ghh, gho := times c l.gho, gbh := times c l.gbh,
           gbo := times c l.gbo, inputGrads := times c l.inputGrads }

theorem backStep_sc (f1 : ℝ → ℝ) (l : Rnn.Layer ℝ) {g g' : List ℝ} (hg : Sc c g g') (t : Nat) {s s' : Rnn.BState ℝ}
    (h : ScB c l.hiddenSize s s') :
    SameEnd (ScB c l.hiddenSize) (l.backStep f1 g t s) ((rnnScaled c l).backStep f1 g' t s') := by
  unfold Rnn.Layer.backStep
  dsimp only [rnnScaled]
  refine bind (arrSum_sc h.gbo hg _ _ _) fun gbo gbo' h1 => bind (outer_sc h.gho hg _ _ _ _ _) fun gho gho' h2 => ?_
  refine bind (tmul_sc ⟨sc_zero _, List.length_replicate ..⟩ hg _ _ _ _) fun tmp tmp' h3 => ?_
  refine bind (arrSum_scl h3 h.carry.1 _ _ _) fun tmp tmp' h3 => ?_
  refine bind (mapFrom_same f1 h.carry.2 ((sc_length h.carry.1).trans h.carry.2) _ _) fun ns ns' h4 => ?_
  rw [h4.1]
  refine bind (arrMulInto_sc h4.2 h3.1) fun ns ns' h5 => ?_
  refine bind (arrSum_sc h.gbh h5 _ _ _) fun gbh gbh' h6 => bind (outer_sc h.gih h5 _ _ _ _ _) fun gih gih' h7 => ?_
  refine bind (outer_sc h.ghh h5 _ _ _ _ _) fun ghh ghh' h8 => ?_
  refine bind (inputGrad_sc h.ig h5 _ _ _ _) fun ig ig' h9 => bind (tmul_sc h3 h5 _ _ _ _) fun k k' h10 => ?_
  exact .ok ⟨h1, h2, h6, h7, h8, h9, h10⟩

theorem rnn_backward_sc (f1 : ℝ → ℝ) (l : Rnn.Layer ℝ) {g g' : List ℝ} (hg : Sc c g g') :
    SameEnd (fun r r' => r' = rnnScaled c r) (l.backward f1 g) ((rnnScaled c l).backward f1 g') := by
  unfold Rnn.Layer.backward
  refine bind (R := ScB c l.hiddenSize) (loop ?_ fun k s s' h => backStep_sc f1 l hg _ h) fun s s' h => .ok ?_
  · exact ⟨rfl, rfl, rfl, rfl, rfl, rfl, sc_zero _, List.length_replicate ..⟩
  · obtain ⟨h1, h2, h3, h4, h5, h6, _⟩ := h
    unfold Sc at h1 h2 h3 h4 h5 h6
    rw [h1, h2, h3, h4, h5, h6]
    rfl

/-! ### Layers -/

open Verif.Net Verif.Graph

/-- Results with states in the relation `R` and the same exception. -/
def Both {σ τ : Type} (R : σ → τ → Prop) (p : σ × Option String) (p' : τ × Option String) : Prop :=
  R p.1 p'.1 ∧ p'.2 = p.2

/-- The second layer is the first one rescaled. -/
def Re (c : ℝ) (a a' : AnyLayer) : Prop := a' = rescaled c a

theorem keep_sc {β β' : Type} {R : β → β' → Prop} {e : Exec β} {e' : Exec β'} {a a' : AnyLayer} {w : β → AnyLayer}
    {w' : β' → AnyLayer} (h : SameEnd R e e') (ha : Re c a a') (hw : ∀ r r', R r r' → Re c (w r) (w' r')) :
    SameEnd (Both (Re c)) (keep a e w) (keep a' e' w') := by
  cases h with
  | ok h => exact .ok ⟨hw _ _ h, rfl⟩
  | throw m => exact .ok ⟨ha, rfl⟩
  | ub => exact .ub

theorem forward_sc (a : AnyLayer) (x : List ℝ) :
    SameEnd (Both (Re c)) (a.forward x) ((rescaled c a).forward x) := by
  cases a with
  | dense l =>
    exact keep_sc (R := fun r r' => r' = { r with
        grads := ⟨times c r.grads.input, times c r.grads.weight, times c r.grads.bias⟩ })
      (bind (refl _) fun o o' ho => .ok (by rw [ho])) rfl fun r r' h => by rw [h]; rfl
  | conv l =>
    exact keep_sc (R := fun r r' => r' = convScaled c r)
      (bind (refl _) fun o o' ho => .ok (by rw [ho]; rfl)) rfl fun r r' h => by rw [h]; rfl
  | maxPool l =>
    exact keep_sc (R := fun r r' => r' = poolScaled c r)
      (bind (refl _) fun o o' ho => .ok (by rw [ho]; rfl)) rfl fun r r' h => by rw [h]; rfl
  | avgPool l =>
    exact keep_sc (R := fun r r' => r' = poolScaled c r)
      (bind (refl _) fun o o' ho => .ok (by rw [ho]; rfl)) rfl fun r r' h => by rw [h]; rfl
  | act f l =>
    refine keep_sc (R := fun r r' => r' = { r with inputGradients := times c r.inputGradients }) ?_ rfl
      fun r r' h => by rw [h]; rfl
    cases f with
    | linear => exact .ok rfl
    | _ => exact bind (refl _) fun o o' ho => .ok (by rw [ho])
  | dropout mx raw l =>
    exact .ok ⟨rfl, rfl⟩
  | rnn f f1 l =>
    exact keep_sc (R := fun r r' => r' = rnnScaled c r)
      (bind (refl _) fun o o' ho => .ok (by rw [ho]; rfl)) rfl fun r r' h => by rw [h]; rfl
  | loss f l =>
    exact bind (loss_forward_sc f l x) fun r r' h => .ok (by rw [h]; exact ⟨rfl, rfl⟩)

theorem setLastInput_sc (a : AnyLayer) (x : List ℝ) :
    (rescaled c a).setLastInput x = rescaled c (a.setLastInput x) := by
  cases a <;> rfl

theorem trainingForward_sc (a : AnyLayer) (x : List ℝ) :
    SameEnd (Both (Re c)) (a.trainingForward x) ((rescaled c a).trainingForward x) := by
  cases a with
  | dropout mx raw l =>
    exact keep_sc (R := fun (r r' : Drop.Layer × List ℝ) => r'.1 = { r.1 with inputGrad := times c r.1.inputGrad })
      (bind (refl _) fun o o' ho => .ok (by rw [ho])) rfl fun r r' h => by rw [h]; rfl
  | dense l => exact forward_sc ((AnyLayer.dense l).setLastInput x) x
  | conv l => exact forward_sc ((AnyLayer.conv l).setLastInput x) x
  | maxPool l => exact forward_sc ((AnyLayer.maxPool l).setLastInput x) x
  | avgPool l => exact forward_sc ((AnyLayer.avgPool l).setLastInput x) x
  | act f l => exact forward_sc ((AnyLayer.act f l).setLastInput x) x
  | rnn f f1 l => exact forward_sc ((AnyLayer.rnn f f1 l).setLastInput x) x
  | loss f l => exact forward_sc ((AnyLayer.loss f l).setLastInput x) x

theorem backward_sc (a : AnyLayer) {g g' : List ℝ} (hg : Sc c g g') :
    SameEnd (Both (Re c)) (a.backward g) ((rescaled c a).backward g') := by
  cases a with
  | dense l =>
    refine keep_sc (R := fun r r' => r' = { r with
        grads := ⟨times c r.grads.input, times c r.grads.weight, times c r.grads.bias⟩ }) ?_ rfl
      fun r r' h => by rw [h]; rfl
    unfold Dense.Layer.backward
    rw [sc_length hg]
    exact bind (dense1_sc (s := l.grads)
      (s' := ⟨times c l.grads.input, times c l.grads.weight, times c l.grads.bias⟩) ⟨rfl, rfl, rfl⟩ hg _ _ _ _) fun s s' h => .ok (by
      obtain ⟨i', w', b'⟩ := s'
      have h1 := h.input; have h2 := h.weight; have h3 := h.bias
      unfold Sc at h1 h2 h3
      dsimp only at h1 h2 h3
      rw [h1, h2, h3])
  | conv l => exact keep_sc (conv_backward_sc l hg) rfl fun r r' h => by rw [h]; rfl
  | maxPool l => exact keep_sc (max_backward_sc l hg) rfl fun r r' h => by rw [h]; rfl
  | avgPool l => exact keep_sc (avg_backward_sc l hg) rfl fun r r' h => by rw [h]; rfl
  | act f l =>
    refine keep_sc (act_sc f (l := l) (l' := { l with inputGradients := times c l.inputGradients }) ⟨rfl, rfl⟩ hg) rfl
      fun r r' h => ?_
    obtain ⟨o, i⟩ := r'
    have h1 := h.1; have h2 := h.2
    unfold Sc at h2
    dsimp only at h1 h2
    rw [h1, h2]
    rfl
  | dropout mx raw l => exact keep_sc (dropout_sc rfl hg) rfl fun r r' h => by rw [h]; rfl
  | rnn f f1 l => exact keep_sc (rnn_backward_sc f1 l hg) rfl fun r r' h => by rw [h]; rfl
  | loss f l => exact keep_sc (loss_backward_sc f l) rfl fun r r' h => by rw [h]; rfl

theorem lastOutput_sc (a : AnyLayer) : (rescaled c a).lastOutput = a.lastOutput := by cases a <;> rfl

theorem inputGradient_sc (a : AnyLayer) : Sc c a.lastInputGradient (rescaled c a).lastInputGradient := by
  cases a <;> rfl

/-! ### Models -/

/-- The layers of the second list are those of the first one rescaled. -/
def Res (c : ℝ) (ls ls' : List AnyLayer) : Prop := ls' = ls.map (rescaled c)

theorem each_sc {σ τ β : Type} {R : σ → τ → Prop} {f : σ → β → Exec (σ × Option String)}
    {f' : τ → β → Exec (τ × Option String)} (hf : ∀ s t b, R s t → SameEnd (Both R) (f s b) (f' t b)) :
    ∀ (bs : List β) (s : σ) (t : τ), R s t → SameEnd (Both R) (each f bs s) (each f' bs t) := by
  intro bs
  induction bs with
  | nil => intro s t h; exact .ok ⟨h, rfl⟩
  | cons b bs ih =>
    intro s t h
    refine bind (hf s t b h) fun p p' hp => ?_
    obtain ⟨q, m⟩ := p
    obtain ⟨q', m'⟩ := p'
    obtain ⟨h1, h2⟩ := hp
    dsimp only at h1 h2
    subst h2
    cases m' with
    | none => exact ih _ _ h1
    | some m => exact .ok ⟨h1, rfl⟩

theorem next_sc {σ τ σ' τ' : Type} {R : σ → τ → Prop} {S : σ' → τ' → Prop} {r : Exec (σ × Option String)}
    {r' : Exec (τ × Option String)} {fail : σ → σ'} {fail' : τ → τ'} {f : σ → Exec (σ' × Option String)}
    {f' : τ → Exec (τ' × Option String)} (h : SameEnd (Both R) r r') (hfail : ∀ s t, R s t → S (fail s) (fail' t))
    (hf : ∀ s t, R s t → SameEnd (Both S) (f s) (f' t)) : SameEnd (Both S) (next r fail f) (next r' fail' f') := by
  refine bind h fun p p' hp => ?_
  obtain ⟨q, m⟩ := p
  obtain ⟨q', m'⟩ := p'
  obtain ⟨h1, h2⟩ := hp
  dsimp only at h1 h2
  subst h2
  cases m' with
  | none => exact hf _ _ h1
  | some m => exact .ok ⟨hfail _ _ h1, rfl⟩

theorem rd_re {ls ls' : List AnyLayer} (h : Res c ls ls') (i : Nat) : SameEnd (Re c) (rd ls i) (rd ls' i) := by
  subst h
  unfold rd
  rw [List.getElem?_map]
  cases ls[i]? with
  | none => exact .ub
  | some a => exact .ok rfl

theorem set_re {ls ls' : List AnyLayer} (h : Res c ls ls') (i : Nat) {a a' : AnyLayer} (ha : Re c a a') :
    Res c (ls.set i a) (ls'.set i a') := by
  subst h ha
  unfold Res
  rw [List.map_set]

theorem value_sc {ls ls' : List AnyLayer} (h : Res c ls ls') (x : List ℝ) (s : Source) :
    value ls' x s = value ls x s := by
  cases s with
  | external => rfl
  | output i =>
    have := rd_re h i
    show (rd ls' i >>= fun l => l.lastOutput) = (rd ls i >>= fun l => l.lastOutput)
    generalize rd ls i = e at this
    generalize rd ls' i = e' at this
    cases this with
    | ok h =>
      subst h
      exact lastOutput_sc _
    | throw m => rfl
    | ub => rfl

theorem forwardAt_sc (x : List ℝ) (ls ls' : List AnyLayer) (s : Source × Nat) (h : Res c ls ls') :
    SameEnd (Both (Res c)) (forwardAt x ls s) (forwardAt x ls' s) := by
  unfold forwardAt
  rw [value_sc h]
  cases value ls x s.1 with
  | ok v =>
    refine bind (rd_re h _) fun a a' ha => ?_
    rw [show a' = _ from ha]
    exact bind (forward_sc a v) fun p p' hp => .ok ⟨set_re h _ hp.1, hp.2⟩
  | throw m => exact .ok ⟨h, rfl⟩
  | ub => exact .ub

/-- The second model is the first one rescaled. -/
def ReM (c : ℝ) (n n' : Net) : Prop := n' = rescaledModel c n

theorem predict_sc (n : Net) (x : List ℝ) :
    SameEnd (fun r r' => ReM c r.1 r'.1 ∧ r'.2 = r.2) (n.predict x) ((rescaledModel c n).predict x) := by
  unfold Net.predict
  dsimp only [rescaledModel]
  cases n.graph.outputs with
  | nil => exact .ok ⟨rfl, rfl⟩
  | cons o os =>
    refine bind (each_sc (forwardAt_sc x) _ n.layers _ rfl) fun r r' hr => ?_
    obtain ⟨q, m⟩ := r
    obtain ⟨q', m'⟩ := r'
    obtain ⟨h1, h2⟩ := hr
    dsimp only at h1 h2
    subst h2
    cases m' with
    | some m => exact .ok ⟨by rw [show q' = _ from h1]; rfl, rfl⟩
    | none =>
      refine bind (rd_re h1 o) fun a a' ha => ?_
      rw [show a' = _ from ha, lastOutput_sc]
      cases a.lastOutput with
      | ok y => exact .ok ⟨by rw [show q' = _ from h1]; rfl, rfl⟩
      | throw m => exact .ok ⟨by rw [show q' = _ from h1]; rfl, rfl⟩
      | ub => exact .ub

/-- The state of `step`. -/
def ReS (c : ℝ) (s s' : Steps) : Prop := Res c s.layers s'.layers ∧ s'.from_ = s.from_

theorem trainAt_sc (x : List ℝ) (st st' : Steps) (s : Source × Nat) (h : ReS c st st') :
    SameEnd (Both (ReS c)) (trainAt x st s) (trainAt x st' s) := by
  unfold trainAt
  rw [value_sc h.1, h.2]
  cases value st.layers x s.1 with
  | ok v =>
    refine bind (rd_re h.1 _) fun a a' ha => ?_
    rw [show a' = _ from ha]
    exact bind (trainingForward_sc a v) fun p p' hp => .ok ⟨⟨set_re h.1 _ hp.1, rfl⟩, hp.2⟩
  | throw m => exact .ok ⟨h, rfl⟩
  | ub => exact .ub

theorem follow_sc (x : List ℝ) {st st' : Steps} (h : ReS c st st') (i : Nat) (a : AnyLayer) :
    SameEnd (Re c) (follow x st i a) (follow x st' i (rescaled c a)) := by
  unfold follow
  rw [h.2]
  split
  · rw [value_sc h.1]
    refine bind (refl _) fun v v' hv => ?_
    rw [hv, setLastInput_sc]
    exact .ok rfl
  · exact .ok rfl

theorem backwardAt_sc (x : List ℝ) {st st' : Steps} (h : ReS c st st') (i : Nat) {g g' : List ℝ} (hg : Sc c g g') :
    SameEnd (Both (ReS c)) (backwardAt x st i g) (backwardAt x st' i g') := by
  unfold backwardAt
  refine bind (rd_re h.1 i) fun a a' ha => ?_
  rw [show a' = _ from ha]
  refine bind (follow_sc x h i a) fun b b' hb => ?_
  rw [show b' = _ from hb]
  exact bind (backward_sc b hg) fun p p' hp => .ok ⟨⟨set_re h.1 _ hp.1, h.2⟩, hp.2⟩

theorem backArcAt_sc (x : List ℝ) (st st' : Steps) (a : Nat × Nat) (h : ReS c st st') :
    SameEnd (Both (ReS c)) (backArcAt x st a) (backArcAt x st' a) := by
  unfold backArcAt
  refine bind (rd_re h.1 _) fun b b' hb => backwardAt_sc x h _ ?_
  rw [show b' = _ from hb]
  exact inputGradient_sc b

theorem targetAt_sc (t : List ℝ) (ls ls' : List AnyLayer) (i : Nat) (h : Res c ls ls') :
    SameEnd (Both (Res c)) (targetAt t ls i) (targetAt t ls' i) := by
  unfold targetAt
  refine bind (rd_re h i) fun a a' ha => ?_
  rw [show a' = _ from ha]
  cases a with
  | loss f l => exact .ok ⟨set_re h _ rfl, rfl⟩
  | _ => exact .ok ⟨h, rfl⟩

theorem step_sc (n : Net) (x t : List ℝ) :
    SameEnd (Both (ReM c)) (n.step x t) ((rescaledModel c n).step x t) := by
  unfold Net.step
  refine bind (R := Both (ReS c)) ?_ fun p p' hp => .ok ⟨?_, hp.2⟩
  · refine next_sc (each_sc (targetAt_sc t) _ n.layers _ rfl) (fun ls ls' h => ⟨h, rfl⟩) fun ls ls' h => ?_
    refine next_sc (R := ReS c) (each_sc (trainAt_sc x) _ _ _ ⟨h, ?_⟩) (fun _ _ h => h) fun st st' h => ?_
    · rw [show ls' = _ from h, List.length_map]
    · refine next_sc (R := ReS c) (each_sc (fun st st' i h => backwardAt_sc x h i rfl) _ _ _ h) (fun _ _ h => h)
        fun st st' h => ?_
      exact each_sc (backArcAt_sc x) _ _ _ h
  · unfold ReM rescaledModel
    rw [show p'.1.layers = _ from hp.1.1]

theorem resetScore_sc (n : Net) : (rescaledModel c n).resetScore = rescaledModel c n.resetScore := by
  unfold Net.resetScore rescaledModel
  dsimp only
  congr 1
  refine List.ext_getElem? fun i => ?_
  rw [List.getElem?_mapIdx, List.getElem?_map, List.getElem?_map, List.getElem?_mapIdx]
  cases n.layers[i]? with
  | none => rfl
  | some a =>
    cases a with
    | loss f l =>
      show some _ = some _
      dsimp only [rescaled]
      split <;> rfl
    | _ => rfl

/-! ### Optimizers -/

/-- All blocks scaled. -/
def ScBs (c : ℝ) (g g' : List (List ℝ)) : Prop := g' = g.map (times c)

theorem lengths_sc {g g' : List (List ℝ)} (h : ScBs c g g') : g'.map List.length = g.map List.length := by
  rw [show g' = _ from h, List.map_map]
  congr 1
  funext v
  exact times_length v

theorem rd_block {g g' : List (List ℝ)} (h : ScBs c g g') (i : Nat) : SameEnd (Sc c) (rd g i) (rd g' i) := by
  subst h
  unfold rd
  rw [List.getElem?_map]
  cases g[i]? with
  | none => exact .ub
  | some a => exact .ok rfl

theorem wr_block {g g' : List (List ℝ)} (h : ScBs c g g') (i : Nat) {v v' : List ℝ} (hv : Sc c v v') :
    SameEnd (ScBs c) (wr g i v) (wr g' i v') := by
  subst h hv
  unfold wr
  rw [List.length_map]
  split
  · exact .ok (by rw [ScBs, List.map_set])
  · exact .ub

theorem readAt_sc (k : Opt.Kind) {g g' : List (List ℝ)} (h : ScBs c g g') (i : Nat) :
    SameEnd (ScN c) (Opt.readAt k g i) (Opt.readAt k g' i) := by
  unfold Opt.readAt
  rw [lengths_sc h]
  refine bind (refl _) fun p p' hp => ?_
  subst hp
  exact bind (rd_block h _) fun b b' hb => rd_sc hb _

theorem writeAt_sc (k : Opt.Kind) {g g' : List (List ℝ)} (h : ScBs c g g') (i : Nat) :
    SameEnd (ScBs c) (Opt.writeAt k g i 0) (Opt.writeAt k g' i 0) := by
  unfold Opt.writeAt
  rw [lengths_sc h]
  refine bind (refl _) fun p p' hp => ?_
  subst hp
  exact bind (rd_block h _) fun b b' hb => bind (wr_sc hb _ scn_zero) fun b b' hb => wr_block h _ hb

/-- An optimizer that does with gradients that are `c` times as large what another one does: `S` relates their
states. -/
def Follows (c : ℝ) {σ τ : Type} (S : σ → τ → Prop) (o : σ → ℝ → ℝ → σ × ℝ) (o' : τ → ℝ → ℝ → τ × ℝ) : Prop :=
  ∀ s t p g, S s t → S (o s p g).1 (o' t p (c * g)).1 ∧ (o' t p (c * g)).2 = (o s p g).2

variable {σ τ : Type} {S : σ → τ → Prop} {o : σ → ℝ → ℝ → σ × ℝ} {o' : τ → ℝ → ℝ → τ × ℝ}

theorem gd_follows (c eta : ℝ) :
    Follows c (fun _ _ : Unit => True) (Opt.gdStep (c * eta)) (Opt.gdStep eta) := by
  intro s t p g _
  refine ⟨trivial, ?_⟩
  unfold Opt.gdStep
  ring

/-- Adam optimizers whose moments are scaled. -/
def ScAdam (c : ℝ) (s t : Opt.Adam) : Prop := t.m = c * s.m ∧ t.v = c ^ 2 * s.v ∧ t.t = s.t

theorem adam_follows (hc : 0 < c) (eta b1 b2 eps : ℝ) :
    Follows c (ScAdam c) (Opt.adamStep eta b1 b2 eps) (Opt.adamStep eta b1 b2 (c * eps)) := by
  intro s t p g h
  obtain ⟨h1, h2, h3⟩ := h
  unfold Opt.adamStep
  dsimp only
  rw [h1, h2, h3]
  have e1 : b1 * (c * s.m) + (1 - b1) * (c * g) = c * (b1 * s.m + (1 - b1) * g) := by ring
  have e2 : b2 * (c ^ 2 * s.v) + (1 - b2) * (c * g * (c * g)) = c ^ 2 * (b2 * s.v + (1 - b2) * (g * g)) := by ring
  rw [e1, e2]
  refine ⟨⟨rfl, rfl, rfl⟩, ?_⟩
  rw [mul_div_assoc c, mul_div_assoc (c ^ 2), Real.sqrt_mul (sq_nonneg c), Real.sqrt_sq hc.le, ← mul_add,
    mul_div_mul_left _ _ hc.ne']

/-- The state of training. -/
def ScT (c : ℝ) (S : σ → τ → Prop) (s : Opt.TState σ ℝ) (s' : Opt.TState τ ℝ) : Prop :=
  S s.opt s'.opt ∧ s'.params = s.params ∧ ScBs c s.grads s'.grads

theorem trainOne_sc (ho : Follows c S o o') (k : Opt.Kind) (i : Nat) {s : Opt.TState σ ℝ} {s' : Opt.TState τ ℝ}
    (h : ScT c S s s') : SameEnd (ScT c S) (Opt.trainOne o k k i s) (Opt.trainOne o' k k i s') := by
  unfold Opt.trainOne
  rw [h.2.1]
  refine bind (refl _) fun p p' hp => bind (readAt_sc k h.2.2 i) fun g g' hg => ?_
  subst hp
  rw [show g' = c * g from hg]
  obtain ⟨h1, h2⟩ := ho s.opt s'.opt p' g h.1
  dsimp only
  rw [h2]
  exact bind (refl _) fun q q' hq => bind (writeAt_sc k h.2.2 i) fun g g' hg => .ok ⟨h1, hq, hg⟩

theorem trainLoop_sc (ho : Follows c S o o') (k : Opt.Kind) : ∀ (n i : Nat) (s : Opt.TState σ ℝ) (s' : Opt.TState τ ℝ),
    ScT c S s s' → ScT c S (Opt.trainLoop o k k n i s).state (Opt.trainLoop o' k k n i s').state ∧
      (Opt.trainLoop o' k k n i s').status = (Opt.trainLoop o k k n i s).status := by
  intro n
  induction n with
  | zero => intro i s s' h; exact ⟨h, rfl⟩
  | succ n ih =>
    intro i s s' h
    unfold Opt.trainLoop
    have := trainOne_sc ho k i h
    generalize Opt.trainOne o k k i s = e at this
    generalize Opt.trainOne o' k k i s' = e' at this
    cases this with
    | ok h => exact ih _ _ _ h
    | throw m => exact ⟨h, rfl⟩
    | ub => exact ⟨h, rfl⟩

theorem setParams_sc (a : AnyLayer) (ps : List (List ℝ)) :
    (rescaled c a).setParams ps = rescaled c (a.setParams ps) := by
  cases a with
  | dense l =>
    match ps with
    | [] => rfl
    | [_] => rfl
    | [_, _] => rfl
    | _ :: _ :: _ :: _ => rfl
  | conv l =>
    match ps with
    | [] => rfl
    | [_] => rfl
    | [_, _] => rfl
    | _ :: _ :: _ :: _ => rfl
  | rnn f f1 l =>
    match ps with
    | [] => rfl
    | [_] => rfl
    | [_, _] => rfl
    | [_, _, _] => rfl
    | [_, _, _, _] => rfl
    | [_, _, _, _, _] => rfl
    | _ :: _ :: _ :: _ :: _ :: _ :: _ => rfl
  | _ => rfl

theorem setParamGrads_sc (a : AnyLayer) (gs : List (List ℝ)) :
    (rescaled c a).setParamGrads (gs.map (times c)) = rescaled c (a.setParamGrads gs) := by
  cases a with
  | dense l =>
    match gs with
    | [] => rfl
    | [_] => rfl
    | [_, _] => rfl
    | _ :: _ :: _ :: _ => rfl
  | conv l =>
    match gs with
    | [] => rfl
    | [_] => rfl
    | [_, _] => rfl
    | _ :: _ :: _ :: _ => rfl
  | rnn f f1 l =>
    match gs with
    | [] => rfl
    | [_] => rfl
    | [_, _] => rfl
    | [_, _, _] => rfl
    | [_, _, _, _] => rfl
    | [_, _, _, _, _] => rfl
    | _ :: _ :: _ :: _ :: _ :: _ :: _ => rfl
  | _ => rfl

theorem train_sc (ho : Follows c S o o') (a : AnyLayer) {s : σ} {t : τ} (h : S s t) :
    S (a.train o s).1.1 ((rescaled c a).train o' t).1.1 ∧
      ((rescaled c a).train o' t).1.2 = rescaled c (a.train o s).1.2 ∧
      ((rescaled c a).train o' t).2 = (a.train o s).2 := by
  have hk : (rescaled c a).kind = a.kind := by cases a <;> rfl
  have hp : (rescaled c a).params = a.params := by cases a <;> rfl
  have hg : (rescaled c a).paramGrads = a.paramGrads.map (times c) := by cases a <;> rfl
  unfold AnyLayer.train Opt.trainSelf
  dsimp only
  rw [hk, hp, hg]
  obtain ⟨⟨h1, h2, h3⟩, h4⟩ := trainLoop_sc ho a.kind a.kind.paramCount 0 ⟨s, a.params, a.paramGrads⟩
    ⟨t, a.params, a.paramGrads.map (times c)⟩ ⟨h, rfl, rfl⟩
  refine ⟨h1, ?_, h4⟩
  rw [h2, show _ = _ from h3, setParams_sc, setParamGrads_sc]

theorem trainLayers_sc (ho : Follows c S o o') : ∀ (ls : List AnyLayer) (s : σ) (t : τ), S s t →
    S (trainLayers o s ls).1.1 (trainLayers o' t (ls.map (rescaled c))).1.1 ∧
      (trainLayers o' t (ls.map (rescaled c))).1.2 = (trainLayers o s ls).1.2.map (rescaled c) ∧
      (trainLayers o' t (ls.map (rescaled c))).2 = (trainLayers o s ls).2 := by
  intro ls
  induction ls with
  | nil => intro s t h; exact ⟨h, rfl, rfl⟩
  | cons a ls ih =>
    intro s t h
    rw [List.map_cons]
    unfold trainLayers
    obtain ⟨h1, h2, h3⟩ := train_sc ho a h
    generalize a.train o s = r at h1 h2 h3 ⊢
    generalize (rescaled c a).train o' t = r' at h1 h2 h3 ⊢
    obtain ⟨⟨u, a1⟩, e⟩ := r
    obtain ⟨⟨u', a1'⟩, e'⟩ := r'
    dsimp only at h1 h2 h3
    subst h2 h3
    cases e' with
    | ok v =>
      obtain ⟨h4, h5, h6⟩ := ih u u' h1
      dsimp only
      exact ⟨h4, by rw [h5]; rfl, h6⟩
    | throw m => exact ⟨h1, rfl, rfl⟩
    | ub => exact ⟨h1, rfl, rfl⟩

theorem train_model (ho : Follows c S o o') (n : Net) {s : σ} {t : τ} (h : S s t) :
    S (n.train o s).1.1 ((rescaledModel c n).train o' t).1.1 ∧
      ((rescaledModel c n).train o' t).1.2 = rescaledModel c (n.train o s).1.2 ∧
      ((rescaledModel c n).train o' t).2 = (n.train o s).2 := by
  obtain ⟨h1, h2, h3⟩ := trainLayers_sc ho n.layers s t h
  refine ⟨h1, ?_, h3⟩
  unfold Net.train rescaledModel
  dsimp only
  rw [h2]

/-! ### Histories -/

theorem session_sc (ho : Follows c S o o') : ∀ (cs : List UserCall) (n : Net) (s : σ) (t : τ), S s t →
    SameEnd (fun r r' => S r.1.1 r'.1.1 ∧ r'.1.2 = rescaledModel c r.1.2 ∧ r'.2 = r.2)
      (session o cs (s, n)) (session o' cs (t, rescaledModel c n)) := by
  intro cs
  induction cs with
  | nil => intro n s t h; exact .ok ⟨h, rfl, rfl⟩
  | cons call cs ih =>
    intro n s t hst
    cases call with
    | predict x =>
      refine bind (predict_sc n x) fun r r' h => ?_
      rw [show r'.1 = _ from h.1]
      exact ih _ _ _ hst
    | resetScore =>
      unfold session
      rw [show (t, rescaledModel c n).2.resetScore = _ from resetScore_sc n]
      exact ih _ _ _ hst
    | step x y =>
      refine bind (step_sc n x y) fun r r' h => ?_
      rw [show r'.1 = _ from h.1]
      exact bind (ih _ _ _ hst) fun q q' hq => .ok ⟨hq.1, hq.2.1, by rw [hq.2.2, h.2]⟩
    | train =>
      unfold session
      dsimp only
      obtain ⟨h1, h2, h3⟩ := train_model ho n hst
      generalize n.train o s = r at h1 h2 h3 ⊢
      generalize (rescaledModel c n).train o' t = r' at h1 h2 h3 ⊢
      obtain ⟨⟨u, m⟩, e⟩ := r
      obtain ⟨⟨u', m'⟩, e'⟩ := r'
      dsimp only at h1 h2 h3
      subst h2 h3
      cases e' with
      | ok v => exact bind (ih _ _ _ h1) fun q q' hq => .ok ⟨hq.1, hq.2.1, by rw [hq.2.2]⟩
      | throw v => exact bind (ih _ _ _ h1) fun q q' hq => .ok ⟨hq.1, hq.2.1, by rw [hq.2.2]⟩
      | ub => exact .ub

/-! ### Training runs -/

theorem run_sc {σ τ : Type} {o : Training.Ops σ} {o' : Training.Ops τ} {Q : σ → τ → Prop}
    (hr : ∀ s t, Q s t → SameEnd Q (o.reset s) (o'.reset t))
    (hs : ∀ i s t, Q s t → SameEnd Q (o.step i s) (o'.step i t))
    (ht : ∀ s t, Q s t → SameEnd Q (o.train s) (o'.train t)) (n b fuel : Nat) :
    ∀ (epochs : Nat) (s : σ) (t : τ), Q s t →
      SameRun Q (Training.run o n b fuel epochs s) (Training.run o' n b fuel epochs t) := by
  have hb : ∀ (left i : Nat) (s : σ) (t : τ), Q s t → SameEnd (fun r q => q.1 = r.1 ∧ Q r.2 q.2)
      (Training.batchLoop o n left i s) (Training.batchLoop o' n left i t) := by
    intro left
    induction left with
    | zero => intro i s t h; exact .ok ⟨rfl, h⟩
    | succ left ih =>
      intro i s t h
      unfold Training.batchLoop
      split
      · exact bind (hs i s t h) fun s t h => ih _ _ _ h
      · exact .ok ⟨rfl, h⟩
  have hbatch : ∀ (i : Nat) (s : σ) (t : τ), Q s t → SameEnd (fun r q => q.1 = r.1 ∧ Q r.2 q.2)
      (Training.batch o n b i s) (Training.batch o' n b i t) := fun i s t h =>
    bind (hr s t h) fun s t h => bind (hb b i s t h) fun r q h => bind (ht _ _ h.2) fun s t h' => .ok ⟨h.1, h'⟩
  have he : ∀ (fuel i : Nat) (s : σ) (t : τ), Q s t →
      SameRun Q (Training.epoch o n b fuel i s) (Training.epoch o' n b fuel i t) := by
    intro fuel
    induction fuel with
    | zero =>
      intro i s t h
      unfold Training.epoch
      split
      · exact .none
      · exact .some (.ok h)
    | succ fuel ih =>
      intro i s t h
      unfold Training.epoch
      split
      · dsimp only
        have := hbatch i s t h
        generalize Training.batch o n b i s = e at this
        generalize Training.batch o' n b i t = e' at this
        cases this with
        | @ok r q h =>
          obtain ⟨j, s⟩ := r
          obtain ⟨j', t⟩ := q
          obtain ⟨rfl, h⟩ := h
          exact ih _ _ _ h
        | throw m => exact .some (.throw m)
        | ub => exact .some .ub
      · exact .some (.ok h)
  intro epochs
  induction epochs with
  | zero => intro s t h; exact .some (.ok h)
  | succ epochs ih =>
    intro s t h
    unfold Training.run
    have := he fuel 0 s t h
    generalize Training.epoch o n b fuel 0 s = e at this
    generalize Training.epoch o' n b fuel 0 t = e' at this
    cases this with
    | none => exact .none
    | some h =>
      cases h with
      | ok h => exact ih _ _ h
      | throw m => exact .some (.throw m)
      | ub => exact .some .ub

theorem fit_sc (ho : Follows c S o o') (d : Data.Dataset ℝ) (fuel epochs b : Nat) (n : Net) {s : σ} {t : τ}
    (h : S s t) :
    SameRun (fun r r' => S r.1 r'.1 ∧ r'.2 = rescaledModel c r.2)
      (Training.fit o d fuel epochs b (s, n)) (Training.fit o' d fuel epochs b (t, rescaledModel c n)) := by
  refine run_sc (Q := fun (r : σ × Net) (r' : τ × Net) => S r.1 r'.1 ∧ r'.2 = rescaledModel c r.2) (fun s t h => ?_)
    (fun i s t h => ?_) (fun s t h => ?_) _ _ _ _ _ _ ⟨h, rfl⟩
  · exact .ok ⟨h.1, by
      show t.2.resetScore = rescaledModel c s.2.resetScore
      rw [h.2, resetScore_sc]⟩
  · refine bind (refl _) fun x x' hx => bind (refl _) fun y y' hy => ?_
    subst hx hy
    refine bind (R := ReM c) ?_ fun m m' hm => .ok ⟨h.1, hm⟩
    unfold Training.raise
    rw [h.2]
    refine bind (step_sc s.2 x' y') fun p p' hp => ?_
    obtain ⟨q, m⟩ := p
    obtain ⟨q', m'⟩ := p'
    obtain ⟨h1, h2⟩ := hp
    dsimp only at h1 h2
    subst h2
    cases m' with
    | none => exact .ok h1
    | some m => exact .throw m
  · unfold Training.modelOps
    dsimp only
    rw [h.2]
    obtain ⟨h1, h2, h3⟩ := train_model ho s.2 h.1
    rw [h3]
    exact bind (refl _) fun u u' _ => .ok ⟨h1, h2⟩

end

end Rescale

end Verif
