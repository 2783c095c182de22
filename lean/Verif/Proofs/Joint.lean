import Verif.Proofs.BackFit
import Verif.Spec.Descent
import Mathlib.Analysis.Calculus.ContDiff.Basic
import Mathlib.Analysis.SpecialFunctions.ExpDeriv
import Mathlib.Analysis.SpecialFunctions.Log.Deriv
import Mathlib.Analysis.SpecialFunctions.Trigonometric.Deriv

/-! The output of a path of layers as a function of all parameters at once. -/

namespace Verif.Net
open Verif.Spec Finset

noncomputable section

/-- A class of functions closed under what layers compute. -/
structure Closed {E : Type} (D : (E → ℝ) → Prop) : Prop where
  const : ∀ c, D fun _ => c
  add : ∀ {u v : E → ℝ}, D u → D v → D fun e => u e + v e
  mul : ∀ {u v : E → ℝ}, D u → D v → D fun e => u e * v e
  div : ∀ {u v : E → ℝ}, D u → D v → (∀ e, v e ≠ 0) → D fun e => u e / v e
  comp : ∀ {φ : ℝ → ℝ} {u : E → ℝ}, ContDiff ℝ 2 φ → D u → D fun e => φ (u e)

variable {E : Type} {D : (E → ℝ) → Prop}

theorem Closed.sum (hD : Closed D) {ι : Type} (s : Finset ι) {u : ι → E → ℝ} (h : ∀ i ∈ s, D (u i)) :
    D fun e => ∑ i ∈ s, u i e := by
  classical
  induction s using Finset.induction_on with
  | empty => simpa using hD.const 0
  | insert a s ha ih =>
    simp only [Finset.sum_insert ha]
    exact hD.add (h a (by simp)) (ih fun i hi => h i (by simp [hi]))

theorem Closed.neg (hD : Closed D) {u : E → ℝ} (h : D u) : D fun e => -u e := by
  have := hD.mul (hD.const (-1)) h
  simpa using this

theorem Closed.sub (hD : Closed D) {u v : E → ℝ} (h : D u) (h' : D v) : D fun e => u e - v e := by
  have := hD.add h (hD.neg h')
  simpa [sub_eq_add_neg] using this

/-- A vector of fixed length that depends on `e`. -/
def DVec (D : (E → ℝ) → Prop) (n : Nat) (X : E → List ℝ) : Prop :=
  (∀ e, (X e).length = n) ∧ ∀ j, j < n → D fun e => vec (X e) j

theorem DVec.all (hD : Closed D) {n : Nat} {X : E → List ℝ} (h : DVec D n X) (j : Nat) :
    D fun e => vec (X e) j := by
  by_cases hj : j < n
  · exact h.2 j hj
  · have : (fun e => vec (X e) j) = fun _ => 0 := by
      funext e
      unfold vec
      rw [List.getD_eq_getElem?_getD, List.getElem?_eq_none (by rw [h.1 e]; omega)]
      rfl
    rw [this]
    exact hD.const 0

theorem dvec_tab {n : Nat} {F : E → Nat → ℝ} (h : ∀ i, i < n → D fun e => F e i) :
    DVec D n fun e => tab n (F e) := by
  refine ⟨fun e => by simp, fun j hj => ?_⟩
  simp only [vec_tab _ hj]
  exact h j hj

/-- Parameter blocks of fixed lengths that depend on `e`. -/
def DParams (D : (E → ℝ) → Prop) (l : AnyLayer) (P : E → List (List ℝ)) : Prop :=
  (∀ e, (P e).map List.length = l.params.map List.length) ∧
  ∀ b k, b < l.params.length → k < (l.params.getD b []).length → D fun e => entry (P e) b k

/-- The rectifiers and the max pooling of the path stay in the class. -/
def KeepsD (D : (E → ℝ) → Prop) (n : Nat) (X : E → List ℝ) : AnyLayer → Prop
  | .dense _ => True
  | .conv _ => True
  | .act .relu _ => ∀ j, j < n → D (fun e => vec (X e) j) → D fun e => Act.relu (vec (X e) j)
  | .act (.elu a) _ => ∀ j, j < n → D (fun e => vec (X e) j) → D fun e => Act.elu a (vec (X e) j)
  | .act _ _ => True
  | .maxPool l => ∀ i, i < (poolGeom l).rows * (poolGeom l).cols * (poolGeom l).src.c →
      (∀ j, D fun e => vec (X e) j) → D fun e => poolOut (poolGeom l) (vec (X e)) i
  | _ => False

theorem pointwise_yields {f : ActFn} {φ : ℝ → ℝ} (hl : f.isLinear = false)
    (hf : f.forward = Act.Layer.forwardWith φ) {l : Act.Layer} {n : Nat} (hn : l.output.length = n)
    {x : List ℝ} (hx : x.length = n) : Yields (.act f l) x (tab n fun i => φ (vec x i)) := by
  intro a' ha'
  obtain ⟨k, rfl, hk⟩ := act_core ha'
  refine ⟨.act f { k with output := tab n fun i => φ (vec x i) }, ?_, rfl⟩
  show keep _ (f.forward k x) _ = _
  rw [hf, Act.forwardWith_eq φ (by rw [hk hl]; omega), hk hl, hn]
  rfl

theorem softmax_yields {l : Act.Layer} {n : Nat} (h0 : 0 < n) (hn : l.output.length = n) {x : List ℝ}
    (hx : x.length = n) : Yields (.act .softmax l) x (tab n (softmaxFn n (vec x))) := by
  intro a' ha'
  obtain ⟨k, rfl, hk⟩ := act_core ha'
  have hk := hk rfl
  refine ⟨.act .softmax { k with output := tab n (softmaxFn n (vec x)) }, ?_, rfl⟩
  show keep _ (Act.softmaxForward k x) _ = _
  unfold Act.softmaxForward
  rw [hk, hn, Act.stableSoftmax_eq h0 (by omega) (by omega)]
  rfl

theorem contDiff_tanh : ContDiff ℝ 2 Act.tanh := by
  have e : Act.tanh = fun y => Real.sinh y / Real.cosh y := by
    funext y; exact Real.tanh_eq_sinh_div_cosh y
  rw [e]
  exact Real.contDiff_sinh.div Real.contDiff_cosh fun x => (Real.cosh_pos x).ne'

theorem contDiff_sigmoid : ContDiff ℝ 2 Act.sigmoid := by
  unfold Act.sigmoid
  refine contDiff_const.div (contDiff_const.add (Real.contDiff_exp.comp contDiff_neg)) ?_
  intro x
  have := Real.exp_pos (-x)
  show 1 + Real.exp (-x) ≠ 0
  positivity

theorem setParams_nil {f : ActFn} {l : Act.Layer} (ps : List (List ℝ)) :
    (AnyLayer.act f l).setParams ps = .act f l := by
  unfold AnyLayer.setParams
  split <;> simp_all

theorem setParams_maxPool {l : Slide.PoolLayer ℝ} (ps : List (List ℝ)) :
    (AnyLayer.maxPool l).setParams ps = .maxPool l := by
  unfold AnyLayer.setParams
  split <;> simp_all

theorem setParams_avgPool {l : Slide.PoolLayer ℝ} (ps : List (List ℝ)) :
    (AnyLayer.avgPool l).setParams ps = .avgPool l := by
  unfold AnyLayer.setParams
  split <;> simp_all

theorem layer_joint (hD : Closed D) {l : AnyLayer} {n m : Nat} (h : Maps n m l)
    {P : E → List (List ℝ)} (hP : DParams D l P) {X : E → List ℝ} (hX : DVec D n X) (hk : KeepsD D n X l) :
    ∃ Y, DVec D m Y ∧ ∀ e, Yields (l.setParams (P e)) (X e) (Y e) := by
  cases l with
  | dense l =>
    have hm := fun e => maps_setParams h (hP.1 e)
    have hs : ∀ e, ∃ w b, P e = [w, b] := fun e =>
      two_of_length (by simpa [AnyLayer.params] using congrArg List.length (hP.1 e))
    choose w b hwb using hs
    obtain rfl : P = fun e => [w e, b e] := funext hwb
    have hw : DVec D l.weights.length w := by
      refine ⟨fun e => ?_, fun j hj => hP.2 0 j (by simp [AnyLayer.params]) hj⟩
      have := hP.1 e
      simp [AnyLayer.params] at this
      exact this.1
    have hb : DVec D l.biases.length b := by
      refine ⟨fun e => ?_, fun j hj => hP.2 1 j (by simp [AnyLayer.params]) hj⟩
      have := hP.1 e
      simp [AnyLayer.params] at this
      exact this.2
    refine ⟨_, ?_, fun e => dense_yields (l := { l with weights := w e, biases := b e }) (hm e) (hX.1 e)⟩
    apply dvec_tab
    intro i hi
    refine hD.add (hb.all hD i) (hD.sum _ fun j _ => hD.mul (hw.all hD _) (hX.all hD j))
  | conv l =>
    have hs : ∀ e, ∃ w b, P e = [w, b] := fun e =>
      two_of_length (by simpa [AnyLayer.params] using congrArg List.length (hP.1 e))
    choose w b hwb using hs
    obtain rfl : P = fun e => [w e, b e] := funext hwb
    have hw : DVec D l.weights.length w := by
      refine ⟨fun e => ?_, fun j hj => hP.2 0 j (by simp [AnyLayer.params]) hj⟩
      have := hP.1 e
      simp [AnyLayer.params] at this
      exact this.1
    obtain ⟨g, hg, h1, h2, h3, h4, h5, h6, h7, h8⟩ := h
    refine ⟨_, ?_, fun e => conv_yields (l := { l with weights := w e, biases := b e }) hg h1 h2 h3 h4
      ((hw.1 e).trans h5) h6 h7 h8 (hX.1 e)⟩
    apply dvec_tab
    intro i hi
    unfold convOut corr
    dsimp only
    refine hD.sum _ fun a _ => hD.sum _ fun b _ => hD.sum _ fun ch _ => hD.mul ?_ (hw.all hD _)
    unfold padded
    split
    · exact hX.all hD _
    · exact hD.const 0
  | act f l =>
    simp only [setParams_nil]
    cases f with
    | relu =>
      obtain ⟨rfl, h2⟩ := h
      exact ⟨_, dvec_tab fun i hi => hk i hi (hX.2 i hi), fun e => pointwise_yields rfl rfl h2 (hX.1 e)⟩
    | elu a =>
      obtain ⟨rfl, h2⟩ := h
      exact ⟨_, dvec_tab fun i hi => hk i hi (hX.2 i hi),
        fun e => pointwise_yields (φ := Act.elu a) rfl rfl h2 (hX.1 e)⟩
    | softmax =>
      obtain ⟨rfl, h2, h3⟩ := h
      refine ⟨_, dvec_tab fun i hi => ?_, fun e => softmax_yields h3 h2 (hX.1 e)⟩
      unfold softmaxFn
      exact hD.div (hD.comp Real.contDiff_exp (hX.2 i hi))
        (hD.sum _ fun j _ => hD.comp Real.contDiff_exp (hX.all hD j))
        fun e => (Act.sum_exp_pos h3 _).ne'
    | tanh =>
      obtain ⟨rfl, h2⟩ := h
      exact ⟨_, dvec_tab fun i hi => hD.comp contDiff_tanh (hX.2 i hi),
        fun e => pointwise_yields (φ := Act.tanh) rfl rfl h2 (hX.1 e)⟩
    | sigmoid =>
      obtain ⟨rfl, h2⟩ := h
      exact ⟨_, dvec_tab fun i hi => hD.comp contDiff_sigmoid (hX.2 i hi),
        fun e => pointwise_yields (φ := Act.sigmoid) rfl rfl h2 (hX.1 e)⟩
    | linear =>
      have h : m = n := h
      subst h
      refine ⟨X, hX, fun e a' ha' => ?_⟩
      obtain ⟨k, rfl, hk⟩ := act_core ha'
      exact ⟨.act .linear { k with output := X e }, rfl, rfl⟩
  | maxPool l =>
    simp only [setParams_maxPool]
    obtain ⟨g, hg, hp, h1, h2, h3, h6, h7, h8⟩ := h
    have e := poolGeom_eq hp h1 h2 h3
    refine ⟨_, dvec_tab fun i hi => ?_, fun e => maxPool_yields hg hp h1 h2 h3 h6 h7 h8 (hX.1 e)⟩
    have := hk i (by rw [e, ← h7]; exact hi) fun j => hX.all hD j
    rwa [e] at this
  | avgPool l => exact hk.elim
  | dropout mx raw l => exact hk.elim
  | rnn f f1 l => exact hk.elim
  | loss f l => exact hk.elim

theorem smoothAt_setParams {x : List ℝ} {l : AnyLayer} {ps : List (List ℝ)}
    (h : SmoothAt x (l.setParams ps)) : SmoothAt x l := by
  unfold AnyLayer.setParams at h
  split at h <;> exact h

theorem fitsTheta_cons {l : AnyLayer} {ls : List AnyLayer} {θ : Theta} (h : FitsTheta (l :: ls) θ) :
    ∃ ps θ', θ = ps :: θ' ∧ ps.map List.length = l.params.map List.length ∧ FitsTheta ls θ' := by
  cases θ with
  | nil => simp [FitsTheta] at h
  | cons ps θ' =>
    unfold FitsTheta at h
    simp only [List.map_cons, List.cons.injEq] at h
    exact ⟨ps, θ', rfl, h.1, h.2⟩

/-- All parameters depend on `e`. -/
def DTheta (D : (E → ℝ) → Prop) (ls : List AnyLayer) (Θ : E → Theta) : Prop :=
  (∀ e, FitsTheta ls (Θ e)) ∧
  ∀ (j : Nat) (l : AnyLayer) (b k : Nat), ls[j]? = some l → b < l.params.length →
    k < (l.params.getD b []).length → D fun e => entry ((Θ e).getD j []) b k

theorem along_of_smooth {ls : List AnyLayer} {x : List ℝ} (h : SmoothAll ls x) : Along SmoothAt ls x := by
  induction h with
  | nil x => exact .nil x
  | cons h1 h2 h3 _ ih => exact .cons h1 h2 h3 ih

theorem smooth_of_along {ls : List AnyLayer} {x : List ℝ} (h : Along SmoothAt ls x) : SmoothAll ls x := by
  induction h with
  | nil x => exact .nil x
  | cons h1 h2 h3 _ ih => exact .cons h1 h2 h3 ih

theorem along_mono {S T : List ℝ → AnyLayer → Prop} (hST : ∀ x l, S x l → T x l) {ls : List AnyLayer}
    {x : List ℝ} (h : Along S ls x) : Along T ls x := by
  induction h with
  | nil x => exact .nil x
  | cons h1 h2 h3 _ ih => exact .cons (hST _ _ h1) h2 h3 ih

theorem smoothTwiceAt_setParams {x : List ℝ} {l : AnyLayer} {ps : List (List ℝ)} :
    SmoothTwiceAt x (l.setParams ps) ↔ SmoothTwiceAt x l := by
  unfold AnyLayer.setParams
  split <;> rfl

theorem smoothAt_of_twice (x : List ℝ) (l : AnyLayer) (h : SmoothTwiceAt x l) : SmoothAt x l := by
  cases l with
  | act f a =>
    cases f with
    | elu a => exact ⟨h.1, .inr h.2⟩
    | relu => exact h
    | _ => trivial
  | dense l => trivial
  | conv l => trivial
  | maxPool l => exact h
  | _ => exact h.elim

theorem layers_joint (hD : Closed D) (e0 : E) {S : List ℝ → AnyLayer → Prop}
    (hS : ∀ l n X, (X e0).length = n → S (X e0) l → KeepsD D n X l)
    (hp : ∀ x l ps, S x (l.setParams ps) → S x l) {ls : List AnyLayer} {n m : Nat} (h : Trainable n m ls) :
    ∀ {Θ : E → Theta}, DTheta D ls Θ →
    ∀ {X : E → List ℝ}, DVec D n X → Along S (withTheta ls (Θ e0)) (X e0) →
    ∃ Y, DVec D m Y ∧ ∀ e, YieldsAll (withTheta ls (Θ e)) (X e) (Y e) := by
  induction h with
  | nil n =>
    intro Θ _ X hX _
    exact ⟨X, hX, fun e => by simpa [withTheta] using YieldsAll.nil (X e)⟩
  | @cons n k m l ls h1 h2 _ ih =>
    intro Θ hΘ X hX hs
    have hc := fun e => fitsTheta_cons (hΘ.1 e)
    choose P Θ' e1 e2 e3 using hc
    obtain rfl : Θ = fun e => P e :: Θ' e := funext e1
    have hP : DParams D l P := ⟨e2, fun b k hb hk' => hΘ.2 0 l b k rfl hb hk'⟩
    cases hs with
    | cons s1 s2 s3 s4 =>
    obtain ⟨Z, z1, z2⟩ := layer_joint hD h1 hP hX (hS l n X (hX.1 e0) (hp _ _ _ s1))
    obtain ⟨l', f1, f2⟩ := z2 e0 _ rfl
    rw [s2] at f1
    cases f1
    rw [s3] at f2
    cases f2
    obtain ⟨Y, y1, y2⟩ := ih (Θ := Θ') ⟨e3, fun j l b k hj => hΘ.2 (j + 1) l b k hj⟩ z1 s4
    exact ⟨Y, y1, fun e => .cons (z2 e) (y2 e)⟩

/-! ### The two classes -/

section
variable {V : Type} [NormedAddCommGroup V] [NormedSpace ℝ V]

theorem closed_differentiableAt (e0 : V) : Closed fun u : V → ℝ => DifferentiableAt ℝ u e0 where
  const c := differentiableAt_const c
  add h h' := h.fun_add h'
  mul h h' := h.fun_mul h'
  div h h' hv := by
    simp only [div_eq_mul_inv]
    exact h.fun_mul (h'.fun_inv (hv e0))
  comp {φ u} hφ h := DifferentiableAt.comp (g := φ) e0 (hφ.differentiable (by norm_num)).differentiableAt h

theorem closed_contDiffAt (e0 : V) : Closed fun u : V → ℝ => ContDiffAt ℝ 2 u e0 where
  const _ := contDiffAt_const
  add h h' := h.add h'
  mul h h' := h.mul h'
  div h h' hv := h.div h' (hv e0)
  comp hφ h := hφ.contDiffAt.comp e0 h

theorem closed_continuousAt (e0 : V) : Closed fun u : V → ℝ => ContinuousAt u e0 where
  const _ := continuousAt_const
  add h h' := h.add h'
  mul h h' := h.mul h'
  div h h' hv := h.div₀ h' (hv e0)
  comp {φ u} hφ h := ContinuousAt.comp (g := φ) hφ.continuous.continuousAt h

theorem relu_contDiffAt {v : ℝ} (h : v ≠ 0) : ContDiffAt ℝ 2 Act.relu v := by
  rcases lt_or_gt_of_ne h with h | h
  · refine (contDiffAt_const (c := 0)).congr_of_eventuallyEq ?_
    filter_upwards [gt_mem_nhds h] with x hx
    simp [Act.relu, hx]
  · refine contDiffAt_id.congr_of_eventuallyEq ?_
    filter_upwards [lt_mem_nhds h] with x hx
    simp [Act.relu, not_lt.mpr hx.le]

theorem elu_contDiffAt (a : ℝ) {v : ℝ} (h : v ≠ 0) : ContDiffAt ℝ 2 (Act.elu a) v := by
  rcases lt_or_gt_of_ne h with h | h
  · have h1 : ContDiffAt ℝ 2 (fun x => a * (Real.exp x - 1)) v :=
      (contDiff_const.mul (Real.contDiff_exp.sub contDiff_const)).contDiffAt
    refine h1.congr_of_eventuallyEq ?_
    filter_upwards [gt_mem_nhds h] with x hx
    simp [Act.elu, not_lt.mpr hx.le]
  · refine contDiffAt_id.congr_of_eventuallyEq ?_
    filter_upwards [lt_mem_nhds h] with x hx
    simp [Act.elu, hx]

theorem relu_continuous : Continuous Act.relu := by
  have : Act.relu = fun x => max x 0 := by
    funext x
    unfold Act.relu
    split
    · next h => rw [max_eq_right h.le]
    · next h => rw [max_eq_left (not_lt.mp h)]
  rw [this]
  exact continuous_id.max continuous_const

theorem elu_continuous (a : ℝ) : Continuous (Act.elu a) := by
  unfold Act.elu
  refine Continuous.if ?_ continuous_id (continuous_const.mul (Real.continuous_exp.sub continuous_const))
  intro x hx
  have : x ∈ ({0} : Set ℝ) := by
    have h : {y : ℝ | y > 0} = Set.Ioi 0 := rfl
    rw [h, frontier_Ioi] at hx
    exact hx
  obtain rfl : x = 0 := this
  simp

/-- Near an input with clear maxima, max pooling picks the same cells. -/
theorem poolOut_near {e0 : V} {X : V → List ℝ} (hX : ∀ j, ContinuousAt (fun e => vec (X e) j) e0)
    {g : Geom} (h : ClearMaxima g (X e0)) {i : Nat} (hi : i < g.rows * g.cols * g.src.c) :
    ∃ q, ∀ᶠ e in nhds e0, poolOut g (vec (X e)) i = vec (X e) q := by
  obtain ⟨o1, o2, o3, _⟩ := out_bounds hi
  obtain ⟨a, b, ha, hb, _, hm⟩ := h _ _ _ o1 o2 o3
  refine ⟨windowCell g (i / g.src.c / g.cols) (i / g.src.c % g.cols) a b (i % g.src.c), ?_⟩
  have hev : ∀ᶠ e in nhds e0, ∀ a' ∈ range g.kh, ∀ b' ∈ range g.kw, ¬ (a' = a ∧ b' = b) →
      vec (X e) (windowCell g (i / g.src.c / g.cols) (i / g.src.c % g.cols) a' b' (i % g.src.c))
        < vec (X e) (windowCell g (i / g.src.c / g.cols) (i / g.src.c % g.cols) a b (i % g.src.c)) := by
    rw [Filter.eventually_all_finset]
    intro a' ha'
    rw [Filter.eventually_all_finset]
    intro b' hb'
    by_cases hq : a' = a ∧ b' = b
    · exact Filter.Eventually.of_forall fun t h => absurd hq h
    · filter_upwards [(hX _).eventually_lt (hX _) (hm a' b' (by simpa using ha') (by simpa using hb') hq)]
        with e he _
      exact he
  filter_upwards [hev] with e he
  exact runMax_cell ha hb fun a' b' ha hb hq => he a' (by simpa using ha) b' (by simpa using hb) hq

theorem clear_near {e0 : V} {X : V → List ℝ} (hX : ∀ j, ContinuousAt (fun e => vec (X e) j) e0)
    {g : Geom} (h : ClearMaxima g (X e0)) : ∀ᶠ e in nhds e0, ClearMaxima g (X e) := by
  have hev : ∀ᶠ e in nhds e0, ∀ r ∈ range g.rows, ∀ c ∈ range g.cols, ∀ ch ∈ range g.src.c,
      ∃ a b, a < g.kh ∧ b < g.kw ∧ (0 < a + b ∨ windowCell g r c a b ch = 0) ∧
      ∀ a' ∈ range g.kh, ∀ b' ∈ range g.kw, ¬ (a' = a ∧ b' = b) →
      vec (X e) (windowCell g r c a' b' ch) < vec (X e) (windowCell g r c a b ch) := by
    rw [Filter.eventually_all_finset]
    intro r hr
    rw [Filter.eventually_all_finset]
    intro c hc
    rw [Filter.eventually_all_finset]
    intro ch hch
    obtain ⟨a, b, ha, hb, h0, hm⟩ := h r c ch (by simpa using hr) (by simpa using hc) (by simpa using hch)
    have hev : ∀ᶠ e in nhds e0, ∀ a' ∈ range g.kh, ∀ b' ∈ range g.kw, ¬ (a' = a ∧ b' = b) →
        vec (X e) (windowCell g r c a' b' ch) < vec (X e) (windowCell g r c a b ch) := by
      rw [Filter.eventually_all_finset]
      intro a' ha'
      rw [Filter.eventually_all_finset]
      intro b' hb'
      by_cases hq : a' = a ∧ b' = b
      · exact Filter.Eventually.of_forall fun t h => absurd hq h
      · filter_upwards [(hX _).eventually_lt (hX _) (hm a' b' (by simpa using ha') (by simpa using hb') hq)]
          with e he _
        exact he
    filter_upwards [hev] with e he
    exact ⟨a, b, ha, hb, h0, he⟩
  filter_upwards [hev] with e he
  intro r c ch hr hc hch
  obtain ⟨a, b, ha, hb, h0, hm⟩ := he r (by simpa using hr) c (by simpa using hc) ch (by simpa using hch)
  exact ⟨a, b, ha, hb, h0, fun a' b' ha' hb' => hm a' (by simpa using ha') b' (by simpa using hb')⟩

theorem kept_contDiffAt (e0 : V) (l : AnyLayer) (n : Nat) (X : V → List ℝ)
    (hX : (X e0).length = n) (h : SmoothTwiceAt (X e0) l) :
    KeepsD (fun u : V → ℝ => ContDiffAt ℝ 2 u e0) n X l := by
  have hm : ∀ j, j < n → vec (X e0) j ∈ X e0 := fun j hj =>
    List.mem_of_getElem? (getElem?_vec (by omega))
  cases l with
  | dense l => trivial
  | conv l => trivial
  | act f l =>
    cases f with
    | relu => exact fun j hj hd => ContDiffAt.comp (g := Act.relu) e0 (relu_contDiffAt (h _ (hm j hj))) hd
    | elu a => exact fun j hj hd => ContDiffAt.comp (g := Act.elu a) e0 (elu_contDiffAt a (h.2 _ (hm j hj))) hd
    | _ => trivial
  | maxPool l =>
    intro i hi hd
    obtain ⟨q, hq⟩ := poolOut_near (fun j => (hd j).continuousAt) h hi
    exact (hd q).congr_of_eventuallyEq hq
  | _ => exact h.elim

theorem kept_continuousAt (e0 : V) (l : AnyLayer) (n : Nat) (X : V → List ℝ)
    (_hX : (X e0).length = n) (h : SmoothTwiceAt (X e0) l) :
    KeepsD (fun u : V → ℝ => ContinuousAt u e0) n X l := by
  cases l with
  | dense l => trivial
  | conv l => trivial
  | act f l =>
    cases f with
    | relu => exact fun j hj hd => ContinuousAt.comp (g := Act.relu) relu_continuous.continuousAt hd
    | elu a => exact fun j hj hd => ContinuousAt.comp (g := Act.elu a) (elu_continuous a).continuousAt hd
    | _ => trivial
  | maxPool l =>
    intro i hi hd
    obtain ⟨q, hq⟩ := poolOut_near hd h hi
    exact (hd q).congr_of_eventuallyEq hq
  | _ => exact h.elim

theorem kept_differentiableAt (e0 : V) (l : AnyLayer) (n : Nat) (X : V → List ℝ)
    (hX : (X e0).length = n) (h : SmoothAt (X e0) l) :
    KeepsD (fun u : V → ℝ => DifferentiableAt ℝ u e0) n X l := by
  have hm : ∀ j, j < n → vec (X e0) j ∈ X e0 := fun j hj =>
    List.mem_of_getElem? (getElem?_vec (by omega))
  cases l with
  | dense l => trivial
  | conv l => trivial
  | act f l =>
    cases f with
    | relu =>
      intro j hj hd
      exact DifferentiableAt.comp (g := Act.relu) e0 (Act.relu_deriv (h _ (hm j hj))).differentiableAt hd
    | elu a =>
      intro j hj hd
      exact DifferentiableAt.comp (g := Act.elu a) e0
        (Act.elu_deriv (h.2.elim Or.inr fun h => Or.inl (h _ (hm j hj)))).differentiableAt hd
    | softmax => trivial
    | tanh => trivial
    | sigmoid => trivial
    | linear => trivial
  | maxPool l =>
    intro i hi hd
    obtain ⟨q, hq⟩ := poolOut_near (fun j => (hd j).continuousAt) h hi
    exact (hd q).congr_of_eventuallyEq hq
  | avgPool l => exact h.elim
  | dropout mx raw l => exact h.elim
  | rnn f f1 l => exact h.elim
  | loss f l => exact h.elim

theorem mse_joint (hD : Closed D) {m : Nat} {Y : E → List ℝ} (hY : DVec D m Y) (inv : ℝ) (t : List ℝ) :
    D fun e => objective .mse m inv t (Y e) := by
  show D fun e => inv * ∑ i ∈ range m, (vec t i - vec (Y e) i) ^ 2
  simp only [pow_two]
  exact hD.mul (hD.const _) (hD.sum _ fun i _ =>
    hD.mul (hD.sub (hD.const _) (hY.all hD i)) (hD.sub (hD.const _) (hY.all hD i)))

theorem objective_joint {e0 : V} {D : (V → ℝ) → Prop} (hD : Closed D)
    (hlog : ∀ u : V → ℝ, D u → 0 < u e0 → D fun e => Real.log (u e))
    (hcongr : ∀ u v : V → ℝ, D u → (∀ᶠ e in nhds e0, v e = u e) → D v)
    (hcont : ∀ u : V → ℝ, D u → ContinuousAt u e0) {f : LossFn} {m : Nat} {Y : V → List ℝ}
    (hY : DVec D m Y) (inv : ℝ) {t : List ℝ}
    (hs : LossSmooth f m t (Y e0)) : D fun e => objective f m inv t (Y e) := by
  cases f with
  | mse => exact mse_joint hD hY inv t
  | cce =>
    show D (fun e => inv * -∑ i ∈ range m, vec t i * Real.log (max (vec (Y e) i) Loss.epsilon))
    refine hD.mul (hD.const _) (hD.neg (hD.sum _ fun i hi => ?_))
    have hi' : i < m := by simpa using hi
    by_cases hz : vec t i = 0
    · simp only [hz, zero_mul]
      exact hD.const 0
    · have hlt := hs rfl i hi' hz
      refine hD.mul (hD.const _) ?_
      refine hcongr _ _ (hlog _ (hY.2 i hi') (lt_trans Loss.epsilon_pos hlt)) ?_
      have hc : ∀ᶠ e in nhds e0, Loss.epsilon < vec (Y e) i :=
        Filter.Tendsto.eventually_const_lt hlt (hcont _ (hY.2 i hi'))
      filter_upwards [hc] with e he
      rw [max_eq_left (le_of_lt he)]

/-- The cost of a batch as a function of all parameters. -/
theorem cost_joint {e0 : V} {D : (V → ℝ) → Prop} (hD : Closed D)
    (hlog : ∀ u : V → ℝ, D u → 0 < u e0 → D fun e => Real.log (u e))
    (hcongr : ∀ u v : V → ℝ, D u → (∀ᶠ e in nhds e0, v e = u e) → D v)
    (hcont : ∀ u : V → ℝ, D u → ContinuousAt u e0) {S : List ℝ → AnyLayer → Prop}
    (hS : ∀ l n X, (X e0).length = n → S (X e0) l → KeepsD D n X l)
    (hp : ∀ x l ps, S x (l.setParams ps) → S x l) {ls : List AnyLayer} {n m : Nat} (h : Trainable n m ls)
    {Θ : V → Theta} (hΘ : DTheta D ls Θ) {f : LossFn} (inv : ℝ) :
    ∀ (samples : List (List ℝ × List ℝ)),
    (∀ s ∈ samples, FitSample (withTheta ls (Θ e0)) f n m s.1 s.2 ∧ Along S (withTheta ls (Θ e0)) s.1) →
    D (fun e => cost f m inv samples (withTheta ls (Θ e))) := by
  intro samples
  induction samples with
  | nil => intro _; simpa [cost] using hD.const 0
  | cons s samples ih =>
    intro hs
    obtain ⟨hs0, hs1⟩ := hs s (by simp)
    obtain ⟨Y, y1, y2⟩ := layers_joint hD e0 hS hp h hΘ
      (X := fun _ => s.1) ⟨fun _ => hs0.size, fun j _ => hD.const _⟩ hs1
    have := hs0.loss
    rw [prediction_of (y2 e0)] at this
    have h1 := objective_joint hD hlog hcongr hcont y1 inv this
    have h2 := ih fun s hs' => hs s (by simp [hs'])
    simp only [cost, List.map_cons, List.sum_cons, prediction_of (y2 _)] at h2 ⊢
    exact hD.add h1 h2

end

end

end Verif.Net
