import Verif.Proofs.BackFnn

/-! Proofs for C108: without gradients nothing moves. -/

namespace Verif

/-- If the call returns, its result satisfies `Q`. -/
def Exec.Always {α : Type _} (e : Exec α) (Q : α → Prop) : Prop := ∀ a, e = .ok a → Q a

theorem Exec.always_true {α : Type _} (e : Exec α) : e.Always fun _ => True := fun _ _ => trivial

theorem Exec.Always.bind {α β : Type _} {e : Exec α} {f : α → Exec β} {Q : α → Prop} {R : β → Prop}
    (h : e.Always Q) (hf : ∀ a, Q a → (f a).Always R) : (e >>= f).Always R := by
  intro b hb
  obtain ⟨a, h1, h2⟩ := Exec.bind_eq_ok hb
  exact hf a (h a h1) b h2

theorem Exec.always_ok {α : Type _} {a : α} {Q : α → Prop} (h : Q a) : (Exec.ok a).Always Q := by
  intro b e; cases e; exact h

theorem always_forFrom {σ : Type _} {body : Nat → σ → Exec σ} (P : Nat → σ → Prop) : ∀ (k i0 : Nat) (s : σ), P i0 s →
    (∀ i s, i0 ≤ i → i < i0 + k → P i s → (body i s).Always (P (i + 1))) → (forFrom i0 k s body).Always (P (i0 + k))
  | 0, _, _, h, _ => Exec.always_ok h
  | k + 1, i0, s, h, hb => by
    refine Exec.Always.bind (hb i0 s (Nat.le_refl _) (by omega) h) fun s' h' => ?_
    have := always_forFrom P k (i0 + 1) s' h' fun i s h1 h2 => hb i s (by omega) (by omega)
    rwa [show i0 + (k + 1) = i0 + 1 + k by omega]

theorem always_forUp {σ : Type _} {body : Nat → σ → Exec σ} (P : Nat → σ → Prop) {n : Nat} {s : σ} (h : P 0 s)
    (hb : ∀ i s, i < n → P i s → (body i s).Always (P (i + 1))) : (forUp n s body).Always (P n) := by
  have := always_forFrom P n 0 s h fun i s _ h2 => hb i s (by omega)
  rwa [Nat.zero_add] at this

/-- The same with an invariant that does not depend on the counter. -/
theorem always_loop {σ : Type _} {body : Nat → σ → Exec σ} (P : σ → Prop) {k i0 : Nat} {s : σ} (h : P s)
    (hb : ∀ i s, P s → (body i s).Always P) : (forFrom i0 k s body).Always P :=
  always_forFrom (fun _ => P) k i0 s h fun i s _ _ => hb i s

/-- All values are zero. -/
def Zeros (l : List ℝ) : Prop := ∀ v ∈ l, v = 0

theorem zeros_replicate (n : Nat) : Zeros (List.replicate n 0) := fun _ h => List.eq_of_mem_replicate h

theorem always_rd {l : List ℝ} (h : Zeros l) (i : Nat) : (rd l i).Always (· = 0) := by
  intro v e
  unfold rd at e
  cases hi : l[i]? with
  | none => rw [hi] at e; cases e
  | some w => rw [hi] at e; cases e; exact h v (List.mem_of_getElem? hi)

theorem always_rdI {l : List ℝ} (h : Zeros l) (i : Int) : (rdI l i).Always (· = 0) := by
  unfold rdI
  split
  · intro v e; cases e
  · exact always_rd h _

theorem zeros_set {l : List ℝ} (h : Zeros l) {i : Nat} {v : ℝ} (hv : v = 0) : Zeros (l.set i v) := by
  intro w hw
  rcases List.mem_or_eq_of_mem_set hw with hw | rfl
  · exact h w hw
  · exact hv

theorem always_wr {l : List ℝ} (h : Zeros l) (i : Nat) {v : ℝ} (hv : v = 0) : (wr l i v).Always Zeros := by
  intro l' e
  unfold wr at e
  split at e
  · cases e; exact zeros_set h hv
  · cases e

/-- The first `i` values are zero and the length is `n`. -/
def Upto (n i : Nat) (l : List ℝ) : Prop := l.length = n ∧ ∀ j, j < i → l[j]? = some 0 ∨ n ≤ j

theorem zeros_upto {n : Nat} {l : List ℝ} (h : Upto n n l) : Zeros l := by
  intro v hv
  obtain ⟨j, hj⟩ := List.getElem?_of_mem hv
  have hlt : j < n := by rw [← h.1]; exact (List.getElem?_eq_some_iff.mp hj).1
  rcases h.2 j hlt with h | h
  · rw [hj] at h; exact Option.some.inj h
  · omega

theorem upto_wr {n i : Nat} {l : List ℝ} (h : Upto n i l) {v : ℝ} (hv : v = 0) : (wr l i v).Always (Upto n (i + 1)) := by
  intro l' e
  unfold wr at e
  split at e
  · next hi =>
    cases e
    refine ⟨by rw [List.length_set]; exact h.1, fun j hj => ?_⟩
    by_cases hij : j = i
    · subst hij
      exact .inl (by rw [List.getElem?_set_self hi, hv])
    · rw [List.getElem?_set_ne (Ne.symm hij)]
      exact h.2 j (by omega)
  · cases e

theorem upto_wr_same {n i k : Nat} {l : List ℝ} (h : Upto n i l) {v : ℝ} (hv : v = 0) : (wr l k v).Always (Upto n i) := by
  intro l' e
  unfold wr at e
  split at e
  · next hi =>
    cases e
    refine ⟨by rw [List.length_set]; exact h.1, fun j hj => ?_⟩
    by_cases hij : j = k
    · subst hij
      exact .inl (by rw [List.getElem?_set_self hi, hv])
    · rw [List.getElem?_set_ne (Ne.symm hij)]
      exact h.2 j hj
  · cases e

theorem upto_rd {n i k : Nat} {l : List ℝ} (h : Upto n i l) (hk : k < i) : (rd l k).Always (· = 0) := by
  intro v e
  unfold rd at e
  rcases h.2 k hk with h1 | h1
  · rw [h1] at e; cases e; rfl
  · rw [List.getElem?_eq_none (by rw [h.1]; exact h1)] at e; cases e

/-! ### Dense layers -/

namespace Dense

theorem fill_zeros {l : List ℝ} {n : Nat} (h : l.length ≤ n) :
    (fill l n 0).Always fun l' => Zeros l' ∧ l'.length = l.length := by
  unfold fill
  have : (forUp n l fun i dst => wr dst i 0).Always fun l' => Upto l.length n l' := by
    refine always_forUp (fun i l' => Upto l.length i l') ⟨rfl, fun j hj => by omega⟩ fun i s _ hs => upto_wr hs rfl
  intro l' e
  have := this l' e
  exact ⟨zeros_upto ⟨this.1, fun j hj => this.2 j (by omega)⟩, this.1⟩

theorem dense1_zeros {s : Grads ℝ} {g x w : List ℝ} {n m : Nat} (hi : s.input.length ≤ n) (hw : Zeros s.weight)
    (hb : Zeros s.bias) (hg : Zeros g) :
    (dense1 s g x w n m).Always fun s' =>
      (Zeros s'.input ∧ s'.input.length = s.input.length) ∧ Zeros s'.weight ∧ Zeros s'.bias := by
  unfold dense1
  refine Exec.Always.bind (fill_zeros hi) fun ig hig => ?_
  refine always_loop (fun s' : Grads ℝ =>
    (Zeros s'.input ∧ s'.input.length = s.input.length) ∧ Zeros s'.weight ∧ Zeros s'.bias) ⟨hig, hw, hb⟩ ?_
  intro i s' ⟨h1, h2, h3⟩
  refine Exec.Always.bind (always_rd h3 i) fun b hb => ?_
  refine Exec.Always.bind (always_rd hg i) fun g0 hg0 => ?_
  refine Exec.Always.bind (always_wr h3 i (by rw [hb, hg0, add_zero])) fun bg hbg => ?_
  refine always_loop (fun s' : Grads ℝ =>
    (Zeros s'.input ∧ s'.input.length = s.input.length) ∧ Zeros s'.weight ∧ Zeros s'.bias) ⟨h1, h2, hbg⟩ ?_
  intro j s' ⟨h1, h2, h3⟩
  refine Exec.Always.bind (always_rd h2 _) fun wg0 hwg0 => ?_
  refine Exec.Always.bind (always_rd hg i) fun g0 hg0 => ?_
  refine Exec.Always.bind (Exec.always_true _) fun x _ => ?_
  refine Exec.Always.bind (always_wr h2 _ (by rw [hwg0, hg0, zero_mul, add_zero])) fun wg hwg => ?_
  refine Exec.Always.bind (always_rd h1.1 _) fun i0 hi0 => ?_
  refine Exec.Always.bind (Exec.always_true _) fun w _ => ?_
  refine Exec.Always.bind (Q := fun l => Zeros l ∧ l.length = s.input.length)
    (fun l e => ⟨always_wr h1.1 _ (by rw [hi0, hg0, zero_mul, add_zero]) l e, (wr_length e).trans h1.2⟩)
    fun ig hig => ?_
  exact Exec.always_ok ⟨hig, hwg, h3⟩

end Dense

/-! ### Layers with windows -/

namespace Slide

theorem always_slide {σ : Type _} {op : Nat → Nat → Nat → Nat → Int → Int → σ → Exec σ} (P : σ → Prop)
    (h : ∀ a b c d e f s, P s → (op a b c d e f s).Always P) {src : Shape3} {k s p : Shape2} {st : σ} (hst : P st) :
    (kernelSlide op src k s p st).Always P := by
  unfold kernelSlide
  exact always_loop P hst fun r st hst => always_loop P hst fun c st hst => h _ _ _ _ _ _ _ hst

theorem conv_zeros {l : ConvLayer ℝ} {g : List ℝ} (hb : Zeros l.biasGrads) (hw : Zeros l.weightGrads) (hg : Zeros g) :
    (l.backward g).Always fun l' => Zeros l'.inputGrads ∧ Zeros l'.weightGrads ∧ Zeros l'.biasGrads := by
  unfold ConvLayer.backward
  have hbias : (convBiasGrads g l.biasGrads l.output l.nFilters).Always Zeros := by
    unfold convBiasGrads
    refine always_loop Zeros hb fun f bg hbg => ?_
    refine Exec.Always.bind (Q := (· = 0)) ?_ fun s hs => always_wr hbg f hs
    refine always_loop (· = 0) rfl fun r s hs => always_loop (· = 0) hs fun c s hs => ?_
    exact Exec.Always.bind (always_rd hg _) fun g0 hg0 => Exec.always_ok (by rw [hs, hg0, add_zero])
  refine Exec.Always.bind hbias fun bg hbg => ?_
  refine Exec.Always.bind (Q := fun r : List ℝ × List ℝ => Zeros r.1 ∧ Zeros r.2) ?_
    fun r hr => Exec.always_ok ⟨hr.1, hr.2, hbg⟩
  refine always_slide (fun r : List ℝ × List ℝ => Zeros r.1 ∧ Zeros r.2) ?_ ⟨zeros_replicate _, hw⟩
  intro a b c d e f s hs
  unfold convGradOp
  refine always_loop (fun r : List ℝ × List ℝ => Zeros r.1 ∧ Zeros r.2) hs fun fi s hs => ?_
  refine Exec.Always.bind (always_rd hg _) fun g0 hg0 => ?_
  refine always_loop (fun r : List ℝ × List ℝ => Zeros r.1 ∧ Zeros r.2) hs fun ki s hs => ?_
  dsimp only
  split
  · exact Exec.always_ok hs
  · refine Exec.Always.bind (Exec.always_true _) fun w _ => ?_
    refine Exec.Always.bind (always_rdI hs.1 _) fun i0 hi0 => ?_
    refine Exec.Always.bind (always_wr hs.1 _ (by rw [hi0, hg0, mul_zero, add_zero])) fun ig hig => ?_
    refine Exec.Always.bind (Exec.always_true _) fun x _ => ?_
    refine Exec.Always.bind (always_rd hs.2 _) fun w0 hw0 => ?_
    refine Exec.Always.bind (always_wr hs.2 _ (by rw [hw0, hg0, mul_zero, add_zero])) fun wg hwg => ?_
    exact Exec.always_ok ⟨hig, hwg⟩

theorem max_zeros {l : PoolLayer ℝ} {g : List ℝ} (hg : Zeros g) :
    (maxBackward l g).Always fun l' => Zeros l'.inputGrads := by
  unfold maxBackward
  refine Exec.Always.bind (Q := Zeros) ?_ fun r hr => Exec.always_ok hr
  refine always_slide Zeros ?_ (zeros_replicate _)
  intro a b c d e f s hs
  unfold maxGradOp
  refine always_loop Zeros hs fun ch s hs => ?_
  refine Exec.Always.bind (always_rd hg _) fun g0 hg0 => ?_
  refine Exec.Always.bind (Exec.always_true _) fun m0 _ => ?_
  refine Exec.Always.bind (Exec.always_true _) fun m _ => ?_
  refine Exec.Always.bind (always_rdI hs _) fun i0 hi0 => ?_
  exact always_wr hs _ (by rw [hi0, hg0, add_zero])

theorem avg_zeros {l : PoolLayer ℝ} {g : List ℝ} (hg : Zeros g) :
    (avgBackward l g).Always fun l' => Zeros l'.inputGrads := by
  unfold avgBackward
  refine Exec.Always.bind (Q := Zeros) ?_ fun r hr => Exec.always_ok hr
  refine always_slide Zeros ?_ (zeros_replicate _)
  intro a b c d e f s hs
  unfold avgGradOp
  refine always_loop Zeros hs fun ch s hs => ?_
  refine Exec.Always.bind (always_rd hg _) fun g0 hg0 => ?_
  refine always_loop Zeros hs fun ki s hs => ?_
  refine Exec.Always.bind (always_rdI hs _) fun i0 hi0 => ?_
  exact always_wr hs _ (by rw [hi0, hg0, zero_div, add_zero])

end Slide

/-! ### Activations -/

namespace Act

theorem mapArr_length (f : ℝ → ℝ) (dst src : List ℝ) (n : Nat) :
    (mapArr f dst src n).Always fun r => r.length = dst.length := by
  unfold mapArr
  refine always_loop (fun r : List ℝ => r.length = dst.length) rfl fun i s hs => ?_
  refine Exec.Always.bind (Exec.always_true _) fun x _ => ?_
  intro l e
  unfold wr at e
  split at e <;> cases e
  rw [List.length_set, hs]

theorem mulInPlace_zeros {dst g : List ℝ} (hg : Zeros g) : (arrMulInPlace dst g dst.length).Always Zeros := by
  unfold arrMulInPlace
  have : (forUp dst.length dst fun i dst => do
      let a ← rd dst i
      let b ← rd g i
      wr dst i (a * b)).Always (Upto dst.length dst.length) := by
    refine always_forUp (Upto dst.length) ⟨rfl, fun j hj => by omega⟩ fun i s _ hs => ?_
    refine Exec.Always.bind (Exec.always_true _) fun a _ => ?_
    exact Exec.Always.bind (always_rd hg _) fun b hb => upto_wr hs (by rw [hb, mul_zero])
  exact fun r e => zeros_upto (this r e)

theorem backwardWith_zeros (f1 : ℝ → ℝ) {l : Layer} {g : List ℝ} (hg : Zeros g) :
    (l.backwardWith f1 g).Always fun l' => Zeros l'.inputGradients := by
  unfold Layer.backwardWith
  refine Exec.Always.bind (mapArr_length f1 _ _ _) fun ig hig => ?_
  refine Exec.Always.bind (Q := Zeros) ?_ fun r hr => Exec.always_ok hr
  rw [← hig]
  exact mulInPlace_zeros hg

theorem linear_zeros {l : Layer} {g : List ℝ} (hg : Zeros g) :
    (linearBackward l g).Always fun l' => Zeros l'.inputGradients := by
  unfold linearBackward
  refine Exec.Always.bind (Q := Zeros) ?_ fun r hr => Exec.always_ok hr
  unfold mapArr
  have : (forUp l.inputGradients.length l.inputGradients fun i dst => do
      let x ← rd g i
      wr dst i x).Always (Upto l.inputGradients.length l.inputGradients.length) :=
    always_forUp (Upto _) ⟨rfl, fun j hj => by omega⟩ fun i s _ hs =>
      Exec.Always.bind (always_rd hg _) fun b hb => upto_wr hs hb
  exact fun r e => zeros_upto (this r e)

theorem softmax_zeros {l : Layer} {g : List ℝ} (hg : Zeros g) :
    (softmaxBackward l g).Always fun l' => Zeros l'.inputGradients := by
  unfold softmaxBackward
  refine Exec.Always.bind (Q := Zeros) ?_ fun r hr => Exec.always_ok hr
  unfold softmax1OptNoCheck
  have : (forUp l.inputGradients.length l.inputGradients fun i dst => do
      let dst ← wr dst i 0
      forUp l.inputGradients.length dst fun j dst => do
        let si ← rd l.output i
        let sj ← rd l.output j
        let g ← rd g j
        let d ← rd dst i
        wr dst i (d + si * ((if i = j then 1 else 0) - sj) * g)).Always
          (Upto l.inputGradients.length l.inputGradients.length) := by
    refine always_forUp (Upto _) ⟨rfl, fun j hj => by omega⟩ fun i s _ hs => ?_
    refine Exec.Always.bind (upto_wr hs rfl) fun s hs => ?_
    refine always_loop (Upto l.inputGradients.length (i + 1)) hs fun j s hs => ?_
    refine Exec.Always.bind (Exec.always_true _) fun si _ => ?_
    refine Exec.Always.bind (Exec.always_true _) fun sj _ => ?_
    refine Exec.Always.bind (always_rd hg _) fun g0 hg0 => ?_
    refine Exec.Always.bind (upto_rd hs (Nat.lt_succ_self i)) fun d hd => ?_
    exact upto_wr_same hs (by rw [hd, hg0, mul_zero, add_zero])
  exact fun r e => zeros_upto (this r e)

end Act

/-! ### Layers -/

namespace Net

/-- A layer of the classes dense, convolution, pooling and activation whose parameters have zero gradients. -/
def Calm : AnyLayer → Prop
  | .dense l => l.grads.input.length ≤ l.inputSize ∧ Zeros l.grads.weight ∧ Zeros l.grads.bias
  | .conv l => Zeros l.weightGrads ∧ Zeros l.biasGrads
  | .maxPool _ => True
  | .avgPool _ => True
  | .act _ _ => True
  | _ => False

theorem keep_none {β : Type} {old a : AnyLayer} {r : Exec β} {wrap : β → AnyLayer}
    (h : keep old r wrap = .ok (a, none)) : ∃ l, r = .ok l ∧ a = wrap l := by
  cases r with
  | ok l => cases h; exact ⟨l, rfl, rfl⟩
  | throw m => cases h
  | ub => cases h

theorem some_of_rd {α : Type _} {l : List α} {i : Nat} {v : α} (h : rd l i = .ok v) : l[i]? = some v := by
  unfold rd at h
  cases hi : l[i]? with
  | none => rw [hi] at h; cases h
  | some w => rw [hi] at h; cases h; rfl

theorem calm_setLastInput {a : AnyLayer} (h : Calm a) (x : List ℝ) : Calm (a.setLastInput x) := by
  cases a <;> exact h

theorem calm_forward {a a' : AnyLayer} {x : List ℝ} {e : Option String} (h : Calm a)
    (hf : a.forward x = .ok (a', e)) : Calm a' := by
  cases a with
  | dense l =>
    rcases keep_ok hf with rfl | ⟨l', h1, rfl, _⟩
    · exact h
    · obtain ⟨o, h2, h3⟩ := Exec.bind_eq_ok h1
      cases h3
      exact h
  | conv l =>
    rcases keep_ok hf with rfl | ⟨l', h1, rfl, _⟩
    · exact h
    · obtain ⟨o, h2, h3⟩ := Exec.bind_eq_ok h1
      cases h3
      exact h
  | maxPool l => rcases keep_ok hf with rfl | ⟨l', h1, rfl, _⟩ <;> trivial
  | avgPool l => rcases keep_ok hf with rfl | ⟨l', h1, rfl, _⟩ <;> trivial
  | act f l => rcases keep_ok hf with rfl | ⟨l', h1, rfl, _⟩ <;> trivial
  | dropout mx raw l => exact h.elim
  | rnn f f1 l => exact h.elim
  | loss f l => exact h.elim

theorem calm_trainingForward {a a' : AnyLayer} {x : List ℝ} {e : Option String} (h : Calm a)
    (hf : a.trainingForward x = .ok (a', e)) : Calm a' := by
  cases a with
  | dropout mx raw l => exact h.elim
  | dense l => exact calm_forward (calm_setLastInput h x) hf
  | conv l => exact calm_forward (calm_setLastInput h x) hf
  | maxPool l => exact calm_forward (calm_setLastInput h x) hf
  | avgPool l => exact calm_forward (calm_setLastInput h x) hf
  | act f l => exact calm_forward (a := .act f l) h hf
  | rnn f f1 l => exact h.elim
  | loss f l => exact h.elim

theorem act_zeros {f : ActFn} {l : Act.Layer} {g : List ℝ} (hg : Zeros g) :
    (f.backward l g).Always fun l' => Zeros l'.inputGradients := by
  cases f with
  | linear => exact Act.linear_zeros hg
  | softmax => exact Act.softmax_zeros hg
  | _ => exact Act.backwardWith_zeros _ hg

/-- Zero gradients coming in: zero gradients going out, and nothing added for the parameters. -/
theorem calm_backward {a a' : AnyLayer} {g : List ℝ} (h : Calm a) (hg : Zeros g)
    (hb : a.backward g = .ok (a', none)) : Calm a' ∧ Zeros a'.lastInputGradient := by
  cases a with
  | dense l =>
    obtain ⟨l', h1, rfl⟩ := keep_none hb
    obtain ⟨G, h2, h3⟩ := Exec.bind_eq_ok h1
    cases h3
    obtain ⟨⟨g1, g2⟩, g3, g4⟩ := Dense.dense1_zeros h.1 h.2.1 h.2.2 hg G h2
    exact ⟨⟨g2.trans_le h.1, g3, g4⟩, g1⟩
  | conv l =>
    obtain ⟨l', h1, rfl⟩ := keep_none hb
    obtain ⟨g1, g2, g3⟩ := Slide.conv_zeros h.2 h.1 hg l' h1
    exact ⟨⟨g2, g3⟩, g1⟩
  | maxPool l =>
    obtain ⟨l', h1, rfl⟩ := keep_none hb
    exact ⟨trivial, Slide.max_zeros hg l' h1⟩
  | avgPool l =>
    obtain ⟨l', h1, rfl⟩ := keep_none hb
    exact ⟨trivial, Slide.avg_zeros hg l' h1⟩
  | act f l =>
    obtain ⟨l', h1, rfl⟩ := keep_none hb
    exact ⟨trivial, act_zeros hg l' h1⟩
  | dropout mx raw l => exact h.elim
  | rnn f f1 l => exact h.elim
  | loss f l => exact h.elim

/-! ### Steps -/

/-- All layers but the one at `q` are calm. -/
def CalmBut (q : Nat) (ls : List AnyLayer) : Prop := ∀ i l, i ≠ q → ls[i]? = some l → Calm l

theorem calmBut_set {q i : Nat} {ls : List AnyLayer} {a : AnyLayer} (h : CalmBut q ls) (ha : i ≠ q → Calm a) :
    CalmBut q (ls.set i a) := by
  intro j l hj hl
  by_cases hij : i = j
  · subst hij
    have hlt : i < ls.length := by
      have := (List.getElem?_eq_some_iff.mp hl).1
      rwa [List.length_set] at this
    rw [List.getElem?_set_self hlt] at hl
    cases hl
    exact ha hj
  · rw [List.getElem?_set_ne hij] at hl
    exact h j l hj hl

theorem always_each {σ β : Type} {f : σ → β → Exec (σ × Option String)} (P : σ → Prop) : ∀ (bs : List β) (s : σ), P s →
    (∀ s b, b ∈ bs → P s → (f s b).Always fun r => P r.1) → (each f bs s).Always fun r => P r.1
  | [], _, h, _ => Exec.always_ok h
  | b :: bs, s, h, hf => by
    refine Exec.Always.bind (hf s b (by simp) h) fun r hr => ?_
    cases he : r.2 with
    | none => exact always_each P bs r.1 hr fun s b hb => hf s b (by simp [hb])
    | some m => exact Exec.always_ok hr

theorem calm_trainAt {q : Nat} {x : List ℝ} {st : Steps} (h : CalmBut q st.layers) (s : Source × Nat) :
    (trainAt x st s).Always fun r => CalmBut q r.1.layers := by
  unfold trainAt
  cases value st.layers x s.1 with
  | ub => intro r e; cases e
  | throw m => exact Exec.always_ok h
  | ok v =>
    intro r e
    obtain ⟨l, h1, e⟩ := Exec.bind_eq_ok e
    obtain ⟨r1, h2, e⟩ := Exec.bind_eq_ok e
    cases e
    refine calmBut_set h fun hq => ?_
    exact calm_trainingForward (h s.2 l hq (some_of_rd h1)) h2

/-- In a list of arcs each one starts at a place that was reached before, or in `V`. -/
def FromReached : List Nat → List (Nat × Nat) → Prop
  | _, [] => True
  | V, a :: as => a.1 ∈ V ∧ FromReached (a.2 :: V) as

theorem calm_backArcs {q : Nat} {x : List ℝ} : ∀ (arcs : List (Nat × Nat)) (V : List Nat) (st st' : Steps),
    (∀ a ∈ arcs, a.2 ≠ q) → FromReached V arcs → CalmBut q st.layers →
    (∀ i ∈ V, ∀ l, st.layers[i]? = some l → Zeros l.lastInputGradient) →
    each (backArcAt x) arcs st = .ok (st', none) → CalmBut q st'.layers
  | [], _, st, st', _, _, h, _, e => by cases e; exact h
  | a :: arcs, V, st, st', hq, ho, h, hz, e => by
    obtain ⟨⟨st1, e1⟩, h1, h2⟩ := Exec.bind_eq_ok e
    cases e1 with
    | some m => cases h2
    | none =>
      obtain ⟨l, k1, h1⟩ := Exec.bind_eq_ok h1
      obtain ⟨b, k2, h1⟩ := Exec.bind_eq_ok h1
      obtain ⟨b1, k3, h1⟩ := Exec.bind_eq_ok h1
      obtain ⟨⟨b2, e2⟩, k4, h1⟩ := Exec.bind_eq_ok h1
      cases h1
      have hqa := hq a (by simp)
      have c0 := h a.2 b hqa (some_of_rd k2)
      have c1 : Calm b1 := by
        unfold follow at k3
        split at k3
        · obtain ⟨v, _, k3⟩ := Exec.bind_eq_ok k3
          cases k3
          exact calm_setLastInput c0 v
        · cases k3; exact c0
      obtain ⟨c2, c3⟩ := calm_backward c1 (hz a.1 ho.1 l (some_of_rd k1)) k4
      refine calm_backArcs arcs (a.2 :: V) _ st' (fun a' h' => hq a' (by simp [h'])) ho.2
        (calmBut_set h fun _ => c2) ?_ h2
      intro i hi l' hl'
      by_cases hia : a.2 = i
      · have hlt := (List.getElem?_eq_some_iff.mp hl').1
        rw [List.length_set] at hlt
        subst hia
        rw [List.getElem?_set_self hlt] at hl'
        cases hl'
        exact c3
      · rw [List.getElem?_set_ne hia] at hl'
        rcases List.mem_cons.mp hi with rfl | hi
        · exact absurd rfl hia
        · exact hz i hi l' hl'

theorem backArcs_keep {q : Nat} {x : List ℝ} : ∀ (arcs : List (Nat × Nat)) (st st' : Steps) (e : Option String),
    (∀ a ∈ arcs, a.2 ≠ q) → each (backArcAt x) arcs st = .ok (st', e) → st'.layers[q]? = st.layers[q]? := by
  intro arcs st st' e hq he
  refine always_each (fun s : Steps => s.layers[q]? = st.layers[q]?) arcs st rfl (fun s a ha hs r hr => ?_) _ he
  obtain ⟨l, _, hr⟩ := Exec.bind_eq_ok hr
  obtain ⟨b, _, hr⟩ := Exec.bind_eq_ok hr
  obtain ⟨b1, _, hr⟩ := Exec.bind_eq_ok hr
  obtain ⟨b2, _, hr⟩ := Exec.bind_eq_ok hr
  cases hr
  show (s.layers.set a.2 _)[q]? = _
  rw [List.getElem?_set_ne (hq a ha)]
  exact hs

theorem fromReached_zip : ∀ (q : Nat) (l V : List Nat), q ∈ V → FromReached V ((q :: l).zip l)
  | _, [], _, _ => trivial
  | _, b :: l, _, h => ⟨h, fromReached_zip b l _ (by simp)⟩

theorem next_none {σ τ : Type} {r : Exec (σ × Option String)} {fail : σ → τ} {f : σ → Exec (τ × Option String)} {t : τ}
    (h : next r fail f = .ok (t, none)) : ∃ s, r = .ok (s, none) ∧ f s = .ok (t, none) := by
  obtain ⟨⟨s, e⟩, h1, h2⟩ := Exec.bind_eq_ok h
  cases e with
  | none => exact ⟨s, h1, h2⟩
  | some m => cases h2

/-- A step of a model with the loss layer `q` that leaves zero gradients there adds nothing to any gradient. -/
theorem step_calm {n n' : Net} {q : Nat} {x t : List ℝ} (hloss : n.graph.loss = [q])
    (ho : FromReached [q] (backwardArcs n.graph)) (hq : ∀ a ∈ backwardArcs n.graph, a.2 ≠ q)
    (h : CalmBut q n.layers) (hs : n.step x t = .ok (n', none))
    (hz : ∀ l, n'.layers[q]? = some l → Zeros l.lastInputGradient) : CalmBut q n'.layers := by
  obtain ⟨⟨st4, e⟩, h1, h2⟩ := Exec.bind_eq_ok hs
  cases h2
  obtain ⟨ls0, k1, h1⟩ := next_none h1
  obtain ⟨st2, k2, h1⟩ := next_none h1
  obtain ⟨st3, k3, k4⟩ := next_none h1
  rw [hloss] at k1 k3
  have c0 : CalmBut q ls0 := by
    refine always_each (CalmBut q) [q] n.layers h (fun s i hi hs r hr => ?_) _ k1
    obtain rfl := List.mem_singleton.mp hi
    obtain ⟨l, _, hr⟩ := Exec.bind_eq_ok hr
    split at hr
    · cases hr; exact calmBut_set hs fun h => absurd rfl h
    · cases hr; exact hs
  have c2 : CalmBut q st2.layers :=
    always_each (fun s : Steps => CalmBut q s.layers) _ _ (by exact c0) (fun s a _ hs => calm_trainAt hs a) _ k2
  have c3 : CalmBut q st3.layers := by
    refine always_each (fun s : Steps => CalmBut q s.layers) [q] st2 c2 (fun s i hi hs r hr => ?_) _ k3
    obtain rfl := List.mem_singleton.mp hi
    obtain ⟨b, _, hr⟩ := Exec.bind_eq_ok hr
    obtain ⟨b1, _, hr⟩ := Exec.bind_eq_ok hr
    obtain ⟨b2, _, hr⟩ := Exec.bind_eq_ok hr
    cases hr
    exact calmBut_set hs fun h => absurd rfl h
  refine calm_backArcs _ [q] st3 st4 hq ho c3 (fun i hi l hl => ?_) k4
  obtain rfl := List.mem_singleton.mp hi
  exact hz l ((backArcs_keep _ _ _ _ hq k4).trans hl)

end Net

/-! ### The optimizer -/

namespace Opt

theorem writeAt_same {α : Type} {k : Kind} {bs : List (List α)} {i : Nat} {v : α} (h : readAt k bs i = .ok v) :
    writeAt k bs i v = .ok bs := by
  unfold readAt at h
  unfold writeAt
  obtain ⟨⟨b, off⟩, h1, h⟩ := Exec.bind_eq_ok h
  obtain ⟨block, h2, h3⟩ := Exec.bind_eq_ok h
  rw [h1, Exec.bind_ok]
  dsimp only at h2 h3 ⊢
  rw [h2, Exec.bind_ok]
  have e2 := Net.some_of_rd h2
  have e3 := Net.some_of_rd h3
  have l2 := (List.getElem?_eq_some_iff.mp e2)
  have l3 := (List.getElem?_eq_some_iff.mp e3)
  have e4 : wr block off v = .ok block := by
    unfold wr
    rw [if_pos l3.1]
    congr 1
    rw [← l3.2, List.set_getElem_self]
  rw [e4, Exec.bind_ok]
  unfold wr
  rw [if_pos l2.1]
  congr 1
  rw [← l2.2, List.set_getElem_self]

theorem trainLoop_rest {σ : Type} {opt : σ → ℝ → ℝ → σ × ℝ} {I : σ → Prop}
    (hr : ∀ s p, I s → (opt s p 0).2 = p ∧ I (opt s p 0).1) {k : Kind} {P G : List (List ℝ)} (hp : Fits k P)
    (hg : Fits k G) (hz : ∀ b ∈ G, Zeros b) : ∀ (m i : Nat) (s : σ), I s → i + m ≤ k.paramCount →
    ∃ s', trainLoop opt k k m i ⟨s, P, G⟩ = ⟨⟨s', P, G⟩, .ok ()⟩ ∧ I s'
  | 0, _, s, hs, _ => ⟨s, rfl, hs⟩
  | m + 1, i, s, hs, hi => by
    have hi' : i < k.paramCount := by omega
    have r1 : ∃ p, readAt k P i = .ok p := by
      rw [readAt_eq hp hi', rd, List.getElem?_eq_getElem (by rw [fits_length hp]; exact hi')]
      exact ⟨_, rfl⟩
    have r2 : readAt k G i = .ok 0 := by
      have hlt : i < G.flatten.length := by rw [fits_length hg]; exact hi'
      have : G.flatten[i] = 0 := by
        obtain ⟨b, hb, hv⟩ := List.mem_flatten.mp (List.getElem_mem hlt)
        exact hz b hb _ hv
      rw [readAt_eq hg hi', rd, List.getElem?_eq_getElem hlt, this]
    obtain ⟨p, r1⟩ := r1
    obtain ⟨o1, o2⟩ := hr s p hs
    have e : trainOne opt k k i ⟨s, P, G⟩ = .ok ⟨(opt s p 0).1, P, G⟩ := by
      unfold trainOne
      dsimp only
      rw [r1, Exec.bind_ok, r2, Exec.bind_ok, o1, writeAt_same r1, Exec.bind_ok, writeAt_same r2, Exec.bind_ok]
      rfl
    obtain ⟨s', h1, h2⟩ := trainLoop_rest hr hp hg hz m (i + 1) (opt s p 0).1 o2 (by omega)
    refine ⟨s', ?_, h2⟩
    unfold trainLoop
    rw [e]
    exact h1

end Opt

namespace Net

theorem train_rest {σ : Type} {opt : σ → ℝ → ℝ → σ × ℝ} {I : σ → Prop}
    (hr : ∀ s p, I s → (opt s p 0).2 = p ∧ I (opt s p 0).1) {a : AnyLayer}
    (hp : a.params.map List.length = a.kind.blockSizes) (hg : a.paramGrads.map List.length = a.kind.blockSizes)
    (hz : ∀ b ∈ a.paramGrads, Zeros b) {s : σ} (hs : I s) : ∃ s', a.train opt s = ((s', a), .ok ()) ∧ I s' := by
  obtain ⟨s', h1, h2⟩ := Opt.trainLoop_rest hr (k := a.kind) hp hg hz a.kind.paramCount 0 s hs (by omega)
  refine ⟨s', ?_, h2⟩
  unfold AnyLayer.train Opt.trainSelf
  dsimp only
  rw [h1]
  dsimp only
  cases a <;> rfl

theorem trainLayers_rest {σ : Type} {opt : σ → ℝ → ℝ → σ × ℝ} {I : σ → Prop}
    (hr : ∀ s p, I s → (opt s p 0).2 = p ∧ I (opt s p 0).1) : ∀ (ls : List AnyLayer) (s : σ), I s →
    (∀ a ∈ ls, a.params.map List.length = a.kind.blockSizes ∧ a.paramGrads.map List.length = a.kind.blockSizes ∧
      ∀ b ∈ a.paramGrads, Zeros b) → ∃ s', trainLayers opt s ls = ((s', ls), .ok ()) ∧ I s'
  | [], s, hs, _ => ⟨s, rfl, hs⟩
  | a :: ls, s, hs, h => by
    obtain ⟨p1, p2, p3⟩ := h a (by simp)
    obtain ⟨s1, e1, i1⟩ := train_rest hr p1 p2 p3 hs
    obtain ⟨s2, e2, i2⟩ := trainLayers_rest hr ls s1 i1 fun a' h' => h a' (by simp [h'])
    refine ⟨s2, ?_, i2⟩
    unfold trainLayers
    rw [e1]
    dsimp only
    rw [e2]

/-! ### Models on a path -/

open Verif.Spec Verif.Graph

noncomputable section

/-- A state of training that has not moved from the layers `ls`. -/
structure AtRest (g : DLGraph) (p : List Nat) (q : Nat) (ls : List AnyLayer) (nin m : Nat) (inv : ℝ) (n : Net)
    (ks : List AnyLayer) : Prop where
  graph : n.graph = g
  length : n.layers.length = g.layers.length
  ready : Ready n p q ks .mse nin m inv
  core : ks.map core = ls.map core
  calm : CalmBut q n.layers

theorem zeros_tab {m : Nat} {f : Nat → ℝ} (h : ∀ i, i < m → f i = 0) : Zeros (tab m f) := by
  intro v hv
  obtain ⟨i, hi, rfl⟩ := List.mem_map.mp hv
  exact h i (List.mem_range.mp hi)

/-- Clear gradient buffers. -/
theorem calm_of_clean {n m : Nat} {l : AnyLayer} (hm : Maps n m l) (hg : HasGrads n m l)
    (hs : l.params.map List.length = l.kind.blockSizes)
    (hz : ∀ b k, b < l.params.length → k < (l.params.getD b []).length → entry l.paramGrads b k = 0) : Calm l := by
  have hf := (grads_fit hm hg hs).trans hs.symm
  have key : ∀ b ∈ l.paramGrads, Zeros b := by
    intro B hB v hv
    obtain ⟨b, hb⟩ := List.getElem?_of_mem hB
    obtain ⟨k, hk⟩ := List.getElem?_of_mem hv
    have e1 := congrArg (fun z => z[b]?) hf
    simp only [List.getElem?_map, hb, Option.map_some] at e1
    cases hP : l.params[b]? with
    | none => rw [hP] at e1; cases e1
    | some P =>
      rw [hP] at e1
      have e2 : B.length = P.length := by simpa using e1
      have hd : l.params.getD b [] = P := by simp [List.getD, hP]
      have := hz b k (List.getElem?_eq_some_iff.mp hP).1 (by
        rw [hd, ← e2]; exact (List.getElem?_eq_some_iff.mp hk).1)
      unfold entry at this
      simpa [List.getD, hb, vec, hk] using this
  cases l with
  | dense l => exact ⟨(hg.1.trans hm.1.symm).le, key _ (by simp [AnyLayer.paramGrads]), key _ (by simp [AnyLayer.paramGrads])⟩
  | conv l => exact ⟨key _ (by simp [AnyLayer.paramGrads]), key _ (by simp [AnyLayer.paramGrads])⟩
  | maxPool l => trivial
  | avgPool l => trivial
  | act f l => trivial
  | dropout mx raw l => exact hg.elim
  | rnn f f1 l => exact hg.elim
  | loss f l => exact hg.elim

theorem zeros_of_calm {l : AnyLayer} (h : Calm l) : ∀ b ∈ l.paramGrads, Zeros b := by
  intro b hb
  cases l with
  | dense l =>
    simp only [AnyLayer.paramGrads, List.mem_cons, List.not_mem_nil, or_false] at hb
    rcases hb with rfl | rfl
    · exact h.2.1
    · exact h.2.2
  | conv l =>
    simp only [AnyLayer.paramGrads, List.mem_cons, List.not_mem_nil, or_false] at hb
    rcases hb with rfl | rfl
    · exact h.1
    · exact h.2
  | maxPool l => cases hb
  | avgPool l => cases hb
  | act f l => cases hb
  | dropout mx raw l => exact h.elim
  | rnn f f1 l => exact h.elim
  | loss f l => exact h.elim

theorem atRest_step {g : DLGraph} {p : List Nat} {q : Nat} {ls : List AnyLayer} {nin m : Nat} {inv : ℝ}
    (hok : Ok g) (hl : Lists g) (hp : IsTrainingPath g p q) (hne : p ≠ []) (hm : 0 < m) {n : Net} {ks : List AnyLayer}
    (ht : Trainable nin m ls) (h : AtRest g p q ls nin m inv n ks) {x t : List ℝ} (hx : x.length = nin)
    (hfit : prediction ls x = t) :
    ∃ n' ks', n.step x t = .ok (n', none) ∧ AtRest g p q ls nin m inv n' ks' := by
  obtain ⟨y, hy⟩ := yieldsAll_of_trainable ht hx
  have hpr : prediction ks x = t := (prediction_core h.core hy).trans hfit
  have hlen : t.length = m := by
    obtain ⟨y', hl', hy'⟩ := yieldsAll_of_maps (mapsAll_of_trainable ht) hx
    rw [← hfit, prediction_of hy', hl']
  have hg := h.graph
  subst hg
  obtain ⟨n', ks', a1, a2, a3, a4, a5, ⟨L, L1, gr, b1, b2, b3, b4, b5⟩, _⟩ := step_path_scored hok hl hp hne h.ready hx
    (t := t) ⟨hlen, hm, by simp⟩
  refine ⟨n', ks', a1, a2, ?_, a3, a4.trans h.core, ?_⟩
  · rw [← h.length]
    exact length_of_core (step_same a1).2
  · obtain ⟨a, rest, rfl⟩ := List.exists_cons_of_ne_nil hne
    obtain ⟨f1, f2, f3, f4⟩ := training_facts hok hl hp
    refine step_calm hp.loss ?_ ?_ h.calm a1 ?_
    · rw [f4]; exact fromReached_zip _ _ _ (by simp)
    · intro c hc e
      rw [f4] at hc
      have := (List.of_mem_zip hc).2
      rw [e] at this
      exact f2 (List.mem_reverse.mp this)
    · intro l hl'
      rw [b5] at hl'
      cases hl'
      show Zeros gr
      rw [b1, hpr]
      exact zeros_tab fun i _ => by simp [lossGrad]

theorem atRest_train {σ : Type} {opt : σ → ℝ → ℝ → σ × ℝ} {I : σ → Prop}
    (hr : ∀ s p, I s → (opt s p 0).2 = p ∧ I (opt s p 0).1) {g : DLGraph} {p : List Nat} {q : Nat} {ls : List AnyLayer}
    {nin m : Nat} {inv : ℝ} (hp : IsTrainingPath g p q) {n : Net} {ks : List AnyLayer}
    (hs : ∀ l ∈ ls, l.params.map List.length = l.kind.blockSizes)
    (h : AtRest g p q ls nin m inv n ks) {s : σ} (hI : I s) : ∃ s', n.train opt s = ((s', n), .ok ()) ∧ I s' := by
  have hg := h.graph
  subst hg
  obtain ⟨s', h1, h2⟩ := trainLayers_rest hr n.layers s hI (by
    intro a ha
    rcases mem_layers hp h.length h.ready ha with hk | ⟨l, rfl⟩
    · obtain ⟨i, o, k1, k2⟩ := trainable_get h.ready.sizes a hk
      obtain ⟨j, hj⟩ := List.mem_iff_getElem?.mp hk
      have hlt : j < ls.length := by
        rw [← length_of_core h.core]; exact (List.getElem?_eq_some_iff.mp hj).1
      have hc := core_get h.core (List.getElem?_eq_getElem hlt) hj
      have hsz : a.params.map List.length = a.kind.blockSizes := by
        rw [params_of_core hc, kind_of_core hc]
        exact hs _ (List.getElem_mem hlt)
      refine ⟨hsz, grads_fit k1 k2 hsz, zeros_of_calm ?_⟩
      obtain ⟨i, hi⟩ := List.getElem?_of_mem ha
      by_cases hq : i = q
      · subst hq
        obtain ⟨L, l1, _⟩ := h.ready.loss
        rw [l1] at hi
        cases hi
        exact k2.elim
      · exact h.calm i a hq hi
    · exact ⟨rfl, rfl, by simp [AnyLayer.paramGrads]⟩)
  exact ⟨s', by unfold Net.train; rw [h1], h2⟩

theorem atRest_reset {g : DLGraph} {p : List Nat} {q : Nat} {ls : List AnyLayer} {nin m : Nat} {inv : ℝ}
    (hp : IsTrainingPath g p q) {n : Net} {ks : List AnyLayer} (h : AtRest g p q ls nin m inv n ks) :
    AtRest g p q ls nin m inv n.resetScore ks := by
  have hat : ∀ i, i ≠ q → n.resetScore.layers[i]? = n.layers[i]? := by
    intro i hi
    unfold Net.resetScore
    simp only [List.getElem?_mapIdx]
    cases hx : n.layers[i]? with
    | none => rfl
    | some a =>
      cases a <;> simp only [Option.map_some]
      rw [if_neg (by rw [h.graph, hp.loss]; simpa using hi)]
  refine ⟨h.graph, ?_, ⟨?_, h.ready.sizes, ?_⟩, h.core, fun i l hi hl => h.calm i l hi ((hat i hi).symm.trans hl)⟩
  · rw [← h.length]; simp [Net.resetScore]
  · rw [← h.ready.layers]
    apply List.map_congr_left
    intro i hi
    apply hat
    rintro rfl
    have := (hp.path.layers i).mp hi
    rw [hp.loss] at this
    simp at this
  · obtain ⟨l, h1, h2, h3, h4⟩ := h.ready.loss
    refine ⟨l.resetScore, ?_, h2, h3, h4⟩
    unfold Net.resetScore
    simp only [List.getElem?_mapIdx, h1, Option.map_some]
    rw [if_pos (by rw [h.graph, hp.loss]; simp)]

theorem atRest_steps {g : DLGraph} {p : List Nat} {q : Nat} {ls : List AnyLayer} {nin m : Nat} {inv : ℝ}
    (hok : Ok g) (hl : Lists g) (hp : IsTrainingPath g p q) (hne : p ≠ []) (hm : 0 < m) (ht : Trainable nin m ls) :
    ∀ (samples : List (List ℝ × List ℝ)) (n : Net) (ks : List AnyLayer), AtRest g p q ls nin m inv n ks →
    (∀ s ∈ samples, s.1.length = nin ∧ prediction ls s.1 = s.2) →
    ∃ n' ks', each (fun n s => n.step s.1 s.2) samples n = .ok (n', none) ∧ AtRest g p q ls nin m inv n' ks'
  | [], n, ks, h, _ => ⟨n, ks, rfl, h⟩
  | s :: samples, n, ks, h, hs => by
    obtain ⟨n1, ks1, a1, a2⟩ := atRest_step hok hl hp hne hm ht h (hs s (by simp)).1 (hs s (by simp)).2
    obtain ⟨n2, ks2, b1, b2⟩ := atRest_steps hok hl hp hne hm ht samples n1 ks1 a2 fun s h => hs s (by simp [h])
    refine ⟨n2, ks2, ?_, b2⟩
    show (n.step s.1 s.2 >>= fun r => _) = _
    rw [a1, Exec.bind_ok]
    exact b1

theorem atRest_fit {σ : Type} {opt : σ → ℝ → ℝ → σ × ℝ} {I : σ → Prop}
    (hr : ∀ s p, I s → (opt s p 0).2 = p ∧ I (opt s p 0).1) {g : DLGraph} {p : List Nat} {q : Nat} {ls : List AnyLayer}
    {nin m : Nat} {inv : ℝ} (hok : Ok g) (hl : Lists g) (hp : IsTrainingPath g p q) (hne : p ≠ []) (hm : 0 < m)
    (ht : Trainable nin m ls) (hs : ∀ l ∈ ls, l.params.map List.length = l.kind.blockSizes)
    (d : Data.Dataset ℝ) (S : Nat → List ℝ × List ℝ) : ∀ (bs : List (List Nat)) (s : σ) (n : Net) (ks : List AnyLayer),
    I s → AtRest g p q ls nin m inv n ks →
    (∀ is ∈ bs, ∀ i ∈ is, d.input i = .ok (S i).1 ∧ d.label i = .ok (S i).2 ∧ (S i).1.length = nin ∧
      prediction ls (S i).1 = (S i).2) →
    ∃ s' n' ks', performAll (Training.modelOps opt d) (bs.flatMap batchCalls) (s, n) = .ok (s', n') ∧ I s' ∧
      AtRest g p q ls nin m inv n' ks'
  | [], s, n, ks, hI, h, _ => ⟨s, n, ks, rfl, hI, h⟩
  | is :: bs, s, n, ks, hI, h, hd => by
    obtain ⟨n1, ks1, a1, a2⟩ := atRest_steps hok hl hp hne hm ht (is.map S) n.resetScore ks (atRest_reset hp h) (by
      intro x hx
      obtain ⟨i, hi, rfl⟩ := List.mem_map.mp hx
      exact (hd is (by simp) i hi).2.2)
    obtain ⟨s1, c1, c2⟩ := atRest_train hr hp hs a2 hI
    obtain ⟨s', n', ks', b1, b2, b3⟩ := atRest_fit hr hok hl hp hne hm ht hs d S bs s1 n1 ks1 c2 a2
      fun is' h' => hd is' (by simp [h'])
    refine ⟨s', n', ks', ?_, b2, b3⟩
    rw [List.flatMap_cons, Training.performAll_append]
    have e1 : performAll (Training.modelOps opt d) (batchCalls is) (s, n) = .ok (s1, n1) := by
      unfold batchCalls
      show (Exec.ok (s, n.resetScore) >>= fun s => _) = _
      rw [Exec.bind_ok, Training.performAll_append,
        perform_steps opt d S is s (fun i hi => ⟨(hd is (by simp) i hi).1, (hd is (by simp) i hi).2.1⟩) a1, Exec.bind_ok]
      show ((do let r := n1.train opt s; r.2; .ok r.1) >>= fun s => Exec.ok s) = _
      dsimp only
      rw [c1]
      rfl
    rw [e1, Exec.bind_ok]
    exact b1

end

end Net

end Verif
