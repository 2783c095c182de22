import Verif.Spec.Backprop
import Verif.Proofs.NetLayer
import Verif.Proofs.Conv
import Verif.Proofs.Activation
import Mathlib.Analysis.Calculus.Deriv.Pow

/-! One layer: `backward` is the transpose of the derivative of `forward`. -/

namespace Verif.Net
open Verif.Spec Finset

noncomputable section

/-- What `backward(g)` does to the layer `l` (and every layer that differs in buffers only) when the
input was `x` and the output is `y`: input gradient `gi`, `gp` added to the parameter gradients. -/
def Back (n m : Nat) (l : AnyLayer) (x y g gi : List ℝ) (gp : Nat → Nat → ℝ) : Prop :=
  ∀ l', core l' = core l → HasGrads n m l' → l'.lastOutput = .ok y →
    ∃ l'', (l'.setLastInput x).backward g = .ok (l'', none) ∧ l''.lastInputGradient = gi ∧
      HasGrads n m l'' ∧ l''.lastOutput = .ok y ∧
      ∀ b k, Learned l b → b < l.params.length → k < (l.params.getD b []).length →
        entry l''.paramGrads b k = entry l'.paramGrads b k + gp b k

/-- Moving the input along a curve. -/
def InputCurve (n m : Nat) (l : AnyLayer) (x y g gi : List ℝ) : Prop :=
  ∀ (X : ℝ → List ℝ) (X' : Nat → ℝ) (t0 : ℝ), X t0 = x → (∀ t, (X t).length = n) →
    (∀ j, j < n → HasDerivAt (fun t => vec (X t) j) (X' j) t0) →
    ∃ (Y : ℝ → List ℝ) (Y' : Nat → ℝ), (∀ t, Yields l (X t) (Y t) ∧ (Y t).length = m) ∧ Y t0 = y ∧
      (∀ i, i < m → HasDerivAt (fun t => vec (Y t) i) (Y' i) t0) ∧
      ∑ i ∈ range m, vec g i * Y' i = ∑ j ∈ range n, vec gi j * X' j

/-- Moving one parameter. -/
def ParamCurve (m : Nat) (l : AnyLayer) (x y g : List ℝ) (gp : Nat → Nat → ℝ) : Prop :=
  ∀ b k, Learned l b → b < l.params.length → k < (l.params.getD b []).length →
    ∃ (Y : ℝ → List ℝ) (Y' : Nat → ℝ),
      (∀ s, Yields (withParam l b k s) x (Y s) ∧ (Y s).length = m) ∧ Y (entry l.params b k) = y ∧
      (∀ i, i < m → HasDerivAt (fun s => vec (Y s) i) (Y' i) (entry l.params b k)) ∧
      ∑ i ∈ range m, vec g i * Y' i = gp b k

/-- A layer that computes `y` from `x`, with the right `backward` as far as it is smooth. -/
def Adjoint (n m : Nat) (l : AnyLayer) (x y : List ℝ) : Prop :=
  Yields l x y ∧ y.length = m ∧ ∀ g : List ℝ, g.length = m →
    ∃ gi gp, gi.length = n ∧ Back n m l x y g gi gp ∧ (SmoothAt x l → InputCurve n m l x y g gi) ∧
      ParamCurve m l x y g gp

/-- The same with the functions that give the input gradient and the parameter gradients. -/
def AdjointWith (n m : Nat) (l : AnyLayer) (x y : List ℝ) (GI : List ℝ → List ℝ)
    (GP : List ℝ → Nat → Nat → ℝ) : Prop :=
  Yields l x y ∧ y.length = m ∧ ∀ g : List ℝ, g.length = m →
    (GI g).length = n ∧ Back n m l x y g (GI g) (GP g) ∧ (SmoothAt x l → InputCurve n m l x y g (GI g)) ∧
      ParamCurve m l x y g (GP g)

theorem AdjointWith.adjoint {n m : Nat} {l : AnyLayer} {x y : List ℝ} {GI : List ℝ → List ℝ}
    {GP : List ℝ → Nat → Nat → ℝ} (h : AdjointWith n m l x y GI GP) : Adjoint n m l x y :=
  ⟨h.1, h.2.1, fun g hg => ⟨GI g, GP g, h.2.2 g hg⟩⟩

theorem yields_fun {a : AnyLayer} {x y y' : List ℝ} (h : Yields a x y) (h' : Yields a x y') :
    y = y' := by
  obtain ⟨a1, e1, e2⟩ := h a rfl
  obtain ⟨a2, e3, e4⟩ := h' a rfl
  rw [e1] at e3
  cases e3
  rw [e2] at e4
  cases e4
  rfl

theorem vec_set {l : List ℝ} {k i : Nat} {v : ℝ} (hk : k < l.length) :
    vec (l.set k v) i = if i = k then v else vec l i := by
  unfold vec
  by_cases h : i = k
  · subst h; simp [hk]
  · rw [if_neg h, List.getD_eq_getElem?_getD, List.getElem?_set_ne (Ne.symm h),
      ← List.getD_eq_getElem?_getD]

theorem set_vec {l : List ℝ} {k : Nat} (_hk : k < l.length) : l.set k (vec l k) = l := by
  apply List.ext_getElem?
  intro i
  by_cases h : k = i
  · subst h; simp [vec, _hk]
  · rw [List.getElem?_set_ne h]

theorem curve_set {l : List ℝ} {k : Nat} (hk : k < l.length) (i : Nat) :
    HasDerivAt (fun s => vec (l.set k s) i) (if i = k then 1 else 0) (vec l k) := by
  simp only [vec_set hk]
  by_cases h : i = k
  · simp only [if_pos h]; exact hasDerivAt_id _
  · simp only [if_neg h]; exact hasDerivAt_const _ _

/-! ### Dense -/

theorem dense_yields {l : Dense.Layer ℝ} {n m : Nat} (h : Maps n m (.dense l)) {x : List ℝ}
    (hx : x.length = n) : Yields (.dense l) x
      (tab m fun i => vec l.biases i + ∑ j ∈ range n, mat l.weights n i j * vec x j) := by
  obtain ⟨h1, h2, h3, h4, h5⟩ := h
  intro a' ha'
  cases a' <;> simp [core] at ha'
  case dense l' =>
  obtain ⟨l'i, l'o, l'w, l'b, l'g, l'out, l'in⟩ := l'
  simp at ha'
  obtain ⟨rfl, rfl, rfl, rfl, e5⟩ := ha'
  refine ⟨.dense ⟨l.inputSize, l.outputSize, l.weights, l.biases, l'g, _, l'in⟩, ?_, rfl⟩
  show keep _ (Dense.Layer.forward _ _) _ = _
  unfold Dense.Layer.forward
  dsimp only
  have := Dense.dense_eq (dst := l'out) (src := x) (w := l.weights) (b := l.biases) (n := x.length)
    (m := l'out.length) (Nat.le_refl _) (Nat.le_refl _) (by rw [h4, e5, h3, hx]) (by rw [h5, e5, h3])
  rw [this, Exec.bind_ok]
  simp only [Exec.pure_eq_ok, keep]
  congr 4
  rw [e5, h3]
  apply tab_congr
  intro i hi
  rw [if_pos hi, hx, ordSum_eq_sum]

theorem vec_tab_fun {m i : Nat} (F : ℝ → Nat → ℝ) (hi : i < m) :
    (fun t => vec (tab m (F t)) i) = fun t => F t i := by
  funext t; exact vec_tab _ hi

theorem dense_adjointWith {l : Dense.Layer ℝ} {n m : Nat} (h : Maps n m (.dense l)) {x : List ℝ}
    (hx : x.length = n) : AdjointWith n m (.dense l) x
      (tab m fun i => vec l.biases i + ∑ j ∈ range n, mat l.weights n i j * vec x j)
      (fun g => tab n fun j => ordSum 0 m fun i => vec g i * mat l.weights n i j)
      (fun g b k => if b = 0 then vec g (k / n) * vec x (k % n) else vec g k) := by
  have h' := h
  obtain ⟨h1, h2, h3, h4, h5⟩ := h
  refine ⟨dense_yields h' hx, by simp, ?_⟩
  intro g hg
  refine ⟨by simp, ?_, ?_, ?_⟩
  · intro l' hc hgr ho
    cases l' <;> simp [core] at hc
    case dense l' =>
    obtain ⟨li, lo, lw, lb, ⟨gi, gw, gb⟩, lout, lin⟩ := l'
    simp at hc
    obtain ⟨rfl, rfl, rfl, rfl, e5⟩ := hc
    obtain ⟨r1, r2, r3⟩ := hgr
    dsimp only at r1 r2 r3
    have key := Dense.dense1_eq (s := ⟨gi, gw, gb⟩) (g := g) (x := x) (w := l.weights) r1 r2 r3
      (by omega) (by omega) (by omega)
    have hbk : (AnyLayer.setLastInput x (.dense
        ⟨l.inputSize, l.outputSize, l.weights, l.biases, ⟨gi, gw, gb⟩, lout, lin⟩)).backward g
        = .ok (.dense ⟨l.inputSize, l.outputSize, l.weights, l.biases,
          ⟨tab n fun j => ordSum 0 m fun i => vec g i * mat l.weights n i j,
            tab (m * n) fun q => vec gw q + vec g (q / n) * vec x (q % n),
            tab m fun i => vec gb i + vec g i⟩, lout, x⟩, none) := by
      show keep _ (Dense.Layer.backward _ g) _ = _
      unfold Dense.Layer.backward
      dsimp only [AnyLayer.setLastInput]
      rw [hg, h1, key, Exec.bind_ok]
      rfl
    refine ⟨_, hbk, rfl, ?_, ?_, ?_⟩
    · exact ⟨by simp, by simp, by simp⟩
    · exact ho
    · intro b k _ hb hk
      have hb' : b < 2 := hb
      match b, hb' with
      | 0, _ =>
        have hk' : k < m * n := by
          have : k < l.weights.length := hk
          omega
        show vec (tab _ _) k = vec gw k + _
        rw [vec_tab _ hk']
        simp
      | 1, _ =>
        have hk' : k < m := by
          have : k < l.biases.length := hk
          omega
        show vec (tab _ _) k = vec gb k + _
        rw [vec_tab _ hk']
        simp
  · intro _ X X' t0 hX0 hXl hX
    refine ⟨_, fun i => ∑ j ∈ range n, mat l.weights n i j * X' j,
      fun t => ⟨dense_yields h' (hXl t), by simp⟩, by rw [hX0], ?_, ?_⟩
    · intro i hi
      rw [vec_tab_fun (fun t i => vec l.biases i + ∑ j ∈ range n, mat l.weights n i j * vec (X t) j) hi]
      refine HasDerivAt.const_add _ (HasDerivAt.fun_sum fun j hj => ?_)
      exact (hX j (by simpa using hj)).const_mul _
    · simp only [Finset.mul_sum]
      rw [Finset.sum_comm]
      apply Finset.sum_congr rfl
      intro j hj
      rw [vec_tab _ (by simpa using hj), ordSum_eq_sum, zero_add, Finset.sum_mul]
      apply Finset.sum_congr rfl
      intro i _
      ring
  · intro b k _ hb hk
    have hb' : b < 2 := hb
    match b, hb' with
    | 0, _ =>
      have hk' : k < l.weights.length := hk
      have hkn : k < m * n := by omega
      have hn : 0 < n := Nat.pos_of_ne_zero (by rintro rfl; simp at hkn)
      have hm : ∀ s, Maps n m (.dense { l with weights := l.weights.set k s }) := fun s =>
        ⟨h1, h2, h3, by simpa using h4, h5⟩
      refine ⟨_, fun i => ∑ j ∈ range n, (if i * n + j = k then 1 else 0) * vec x j,
        fun s => ⟨dense_yields (hm s) hx, by simp⟩, ?_, ?_, ?_⟩
      · show tab m (fun i => vec l.biases i + ∑ j ∈ range n,
          mat (l.weights.set k (vec l.weights k)) n i j * vec x j) = _
        rw [set_vec hk']
      · intro i hi
        rw [vec_tab_fun (fun s i => vec l.biases i + ∑ j ∈ range n,
          mat (l.weights.set k s) n i j * vec x j) hi]
        refine HasDerivAt.const_add _ (HasDerivAt.fun_sum fun j _ => ?_)
        exact (curve_set hk' (i * n + j)).mul_const _
      · beta_reduce
        rw [if_pos rfl]
        have hd : k / n < m := Nat.div_lt_of_lt_mul (by rw [Nat.mul_comm]; exact hkn)
        have hr : k % n < n := Nat.mod_lt _ hn
        rw [Finset.sum_eq_single_of_mem (k / n) (by simpa using hd)]
        · congr 1
          rw [Finset.sum_eq_single_of_mem (k % n) (by simpa using hr)]
          · rw [if_pos (Nat.div_add_mod' k n), one_mul]
          · intro j hj hne
            rw [if_neg, zero_mul]
            intro e
            apply hne
            have hj' : j < n := by simpa using hj
            have : (k / n * n + j) % n = j := by
              rw [Nat.mul_comm, Nat.mul_add_mod, Nat.mod_eq_of_lt hj']
            rw [e] at this
            exact this.symm
        · intro i _ hne
          rw [Finset.sum_eq_zero, mul_zero]
          intro j hj
          rw [if_neg, zero_mul]
          intro e
          apply hne
          have hj' : j < n := by simpa using hj
          have : (i * n + j) / n = i := by
            rw [Nat.mul_comm, Nat.mul_add_div hn, Nat.div_eq_of_lt hj', Nat.add_zero]
          rw [e] at this
          exact this.symm
    | 1, _ =>
      have hk' : k < l.biases.length := hk
      have hm : ∀ s, Maps n m (.dense { l with biases := l.biases.set k s }) := fun s =>
        ⟨h1, h2, h3, h4, by simpa using h5⟩
      refine ⟨_, fun i => if i = k then 1 else 0,
        fun s => ⟨dense_yields (hm s) hx, by simp⟩, ?_, ?_, ?_⟩
      · show tab m (fun i => vec (l.biases.set k (vec l.biases k)) i + ∑ j ∈ range n,
          mat l.weights n i j * vec x j) = _
        rw [set_vec hk']
      · intro i hi
        rw [vec_tab_fun (fun s i => vec (l.biases.set k s) i + ∑ j ∈ range n,
          mat l.weights n i j * vec x j) hi]
        exact (curve_set hk' i).add_const _
      · beta_reduce
        rw [if_neg (by simp)]
        simp
        intro hh
        omega

theorem dense_adjoint {l : Dense.Layer ℝ} {n m : Nat} (h : Maps n m (.dense l)) {x : List ℝ}
    (hx : x.length = n) : ∃ y, Adjoint n m (.dense l) x y := ⟨_, (dense_adjointWith h hx).adjoint⟩

/-! ### Activations -/

theorem act_core {f : ActFn} {l : Act.Layer} {l' : AnyLayer} (h : core l' = core (.act f l)) :
    ∃ k, l' = .act f k ∧ (f.isLinear = false → k.output.length = l.output.length) := by
  cases l' <;> simp [core] at h
  case act f' k =>
  obtain ⟨rfl, e⟩ := h
  refine ⟨k, rfl, fun hf => ?_⟩
  have e1 := e.1
  simpa [hf] using e1

/-- Activation classes that apply one function to every value. -/
theorem pointwise_adjointWith {f : ActFn} {φ φo : ℝ → ℝ} (hl : f.isLinear = false)
    (hf : f.forward = Act.Layer.forwardWith φ) (hb : f.backward = Act.Layer.backwardWith φo)
    {l : Act.Layer} {n : Nat} (hn : l.output.length = n) {x : List ℝ}
    (hx : x.length = n) (hd : SmoothAt x (.act f l) → ∀ v ∈ x, HasDerivAt φ (φo (φ v)) v) :
    AdjointWith n n (.act f l) x (tab n fun i => φ (vec x i))
      (fun g => tab n fun i => φo (φ (vec x i)) * vec g i) (fun _ _ _ => 0) := by
  have yields : ∀ x : List ℝ, x.length = n → Yields (.act f l) x (tab n fun i => φ (vec x i)) := by
    intro x hx a' ha'
    obtain ⟨k, rfl, hk⟩ := act_core ha'
    refine ⟨.act f { k with output := tab n fun i => φ (vec x i) }, ?_, rfl⟩
    show keep _ (f.forward k x) _ = _
    rw [hf, Act.forwardWith_eq φ (by rw [hk hl]; omega), hk hl, hn]
    rfl
  have hdv : SmoothAt x (.act f l) → ∀ j, j < n → HasDerivAt φ (φo (φ (vec x j))) (vec x j) := by
    intro hs j hj
    apply hd hs
    have : x[j]? = some (vec x j) := getElem?_vec (by omega)
    exact List.mem_of_getElem? this
  refine ⟨yields x hx, by simp, ?_⟩
  intro g hg
  refine ⟨by simp, ?_, ?_, ?_⟩
  · intro l' hc hgr hout
    obtain ⟨k, rfl, hk⟩ := act_core hc
    obtain ⟨ko, ki⟩ := k
    have hki : ki.length = n := hgr
    have hko : ko = tab n fun i => φ (vec x i) := by
      have : (Exec.ok ko : Exec (List ℝ)) = .ok _ := hout
      cases this; rfl
    refine ⟨.act f ⟨ko, tab n fun i => φo (φ (vec x i)) * vec g i⟩, ?_, rfl, by simp [HasGrads], hout, ?_⟩
    · show keep _ (f.backward _ g) _ = _
      rw [hb, Act.backwardWith_eq φo (by simp [hki, hko]) (by simp [hki, hg])]
      simp only [keep, hki]
      congr 4
      apply tab_congr
      intro i hi
      rw [hko, vec_tab _ hi]
    · intro b k _ hb' _
      exact absurd hb' (by simp [AnyLayer.params])
  · intro hs X X' t0 hX0 hXl hX
    refine ⟨_, fun i => φo (φ (vec x i)) * X' i, fun t => ⟨yields _ (hXl t), by simp⟩, by rw [hX0], ?_, ?_⟩
    · intro i hi
      rw [vec_tab_fun (fun t i => φ (vec (X t) i)) hi]
      have h1 := hdv hs i hi
      rw [← hX0] at h1
      have := HasDerivAt.comp t0 h1 (hX i hi)
      rw [hX0] at this
      exact this
    · apply Finset.sum_congr rfl
      intro i hi
      rw [vec_tab _ (by simpa using hi)]
      ring
  · intro b k _ hb' _
    exact absurd hb' (by simp [AnyLayer.params])

theorem pointwise_adjoint {f : ActFn} {φ φo : ℝ → ℝ} (hl : f.isLinear = false)
    (hf : f.forward = Act.Layer.forwardWith φ) (hb : f.backward = Act.Layer.backwardWith φo)
    {l : Act.Layer} {n : Nat} (hn : l.output.length = n) {x : List ℝ}
    (hx : x.length = n) (hd : SmoothAt x (.act f l) → ∀ v ∈ x, HasDerivAt φ (φo (φ v)) v) :
    ∃ y, Adjoint n n (.act f l) x y := ⟨_, (pointwise_adjointWith hl hf hb hn hx hd).adjoint⟩

theorem linear_adjointWith {l : Act.Layer} {x : List ℝ} :
    AdjointWith x.length x.length (.act .linear l) x x (fun g => g) (fun _ _ _ => 0) := by
  have yields : ∀ x : List ℝ, Yields (.act .linear l) x x := by
    intro x a' ha'
    obtain ⟨k, rfl, hk⟩ := act_core ha'
    exact ⟨.act .linear { k with output := x }, rfl, rfl⟩
  refine ⟨yields x, rfl, ?_⟩
  intro g hg
  refine ⟨hg, ?_, ?_, ?_⟩
  · intro l' hc hgr hout
    obtain ⟨k, rfl, hk⟩ := act_core hc
    obtain ⟨ko, ki⟩ := k
    have hki : ki.length = x.length := hgr
    refine ⟨.act .linear ⟨ko, g⟩, ?_, rfl, hg, hout, ?_⟩
    · show keep _ (Act.linearBackward _ g) _ = _
      unfold Act.linearBackward
      dsimp only
      rw [Act.mapArr_eq (fun g => g) rfl (by omega), Exec.bind_ok]
      have : (tab ki.length fun i => vec g i) = g := by
        rw [hki, ← hg]; exact (eq_tab g).symm
      rw [this]
      rfl
    · intro b k _ hb' _
      exact absurd hb' (by simp [AnyLayer.params])
  · intro _ X X' t0 hX0 hXl hX
    exact ⟨X, X', fun t => ⟨yields _, hXl t⟩, hX0, hX, rfl⟩
  · intro b k _ hb' _
    exact absurd hb' (by simp [AnyLayer.params])

theorem linear_adjoint {l : Act.Layer} {x : List ℝ} :
    ∃ y, Adjoint x.length x.length (.act .linear l) x y := ⟨_, linear_adjointWith.adjoint⟩

theorem softmax_curve {n : Nat} (hn : 0 < n) (X : ℝ → Nat → ℝ) (X' : Nat → ℝ) (t0 : ℝ)
    (h : ∀ j, j < n → HasDerivAt (fun t => X t j) (X' j) t0) {i : Nat} (hi : i < n) :
    HasDerivAt (fun t => softmaxFn n (X t) i)
      (∑ j ∈ range n, softmaxFn n (X t0) j * ((if j = i then 1 else 0) - softmaxFn n (X t0) i) * X' j)
      t0 := by
  unfold softmaxFn
  have hpos := Act.sum_exp_pos hn (X t0)
  have h1 := (h i hi).exp
  have h2 : HasDerivAt (fun t => ∑ j ∈ range n, Real.exp (X t j))
      (∑ j ∈ range n, Real.exp (X t0 j) * X' j) t0 :=
    HasDerivAt.fun_sum fun j hj => (h j (by simpa using hj)).exp
  refine (h1.fun_div h2 hpos.ne').congr_deriv ?_
  generalize hS : ∑ j ∈ range n, Real.exp (X t0 j) = S at *
  have e : ∀ j ∈ range n, Real.exp (X t0 j) / S * ((if j = i then 1 else 0) - Real.exp (X t0 i) / S) * X' j
      = (if j = i then Real.exp (X t0 j) / S * X' j else 0)
        - Real.exp (X t0 i) / S ^ 2 * (Real.exp (X t0 j) * X' j) := by
    intro j _
    split
    · field_simp
    · field_simp
      ring
  rw [Finset.sum_congr rfl e, Finset.sum_sub_distrib, ← Finset.mul_sum, Finset.sum_ite_eq',
    if_pos (by simpa using hi)]
  field_simp

theorem softmax_adjointWith {l : Act.Layer} {n : Nat} (h0 : 0 < n) (hn : l.output.length = n) {x : List ℝ}
    (hx : x.length = n) : AdjointWith n n (.act .softmax l) x (tab n (softmaxFn n (vec x)))
      (fun g => tab n fun i => ∑ j ∈ range n, softmaxFn n (vec x) i
        * ((if i = j then 1 else 0) - softmaxFn n (vec x) j) * vec g j) (fun _ _ _ => 0) := by
  have yields : ∀ x : List ℝ, x.length = n →
      Yields (.act .softmax l) x (tab n (softmaxFn n (vec x))) := by
    intro x hx a' ha'
    obtain ⟨k, rfl, hk⟩ := act_core ha'
    have hk := hk rfl
    refine ⟨.act .softmax { k with output := tab n (softmaxFn n (vec x)) }, ?_, rfl⟩
    show keep _ (Act.softmaxForward k x) _ = _
    unfold Act.softmaxForward
    rw [hk, hn, Act.stableSoftmax_eq h0 (by omega) (by omega)]
    rfl
  refine ⟨yields x hx, by simp, ?_⟩
  intro g hg
  refine ⟨by simp, ?_, ?_, ?_⟩
  · intro l' hc hgr hout
    obtain ⟨k, rfl, hk⟩ := act_core hc
    obtain ⟨ko, ki⟩ := k
    have hki : ki.length = n := hgr
    have hko : ko = tab n (softmaxFn n (vec x)) := by
      have : (Exec.ok ko : Exec (List ℝ)) = .ok _ := hout
      cases this; rfl
    refine ⟨.act .softmax ⟨ko, tab n fun i => ∑ j ∈ range n, softmaxFn n (vec x) i
      * ((if i = j then 1 else 0) - softmaxFn n (vec x) j) * vec g j⟩, ?_, rfl, by simp [HasGrads], hout, ?_⟩
    · show keep _ (Act.softmaxBackward _ g) _ = _
      unfold Act.softmaxBackward
      dsimp only
      rw [hki, Act.softmax1Opt_eq hki (by simp [hko]) (by omega), Exec.bind_ok]
      simp only [keep, Exec.pure_eq_ok]
      congr 4
      apply tab_congr
      intro i hi
      apply Finset.sum_congr rfl
      intro j hj
      rw [hko, vec_tab _ hi, vec_tab _ (by simpa using hj)]
    · intro b k _ hb' _
      exact absurd hb' (by simp [AnyLayer.params])
  · intro _ X X' t0 hX0 hXl hX
    refine ⟨_, fun i => ∑ j ∈ range n, softmaxFn n (vec x) j
        * ((if j = i then 1 else 0) - softmaxFn n (vec x) i) * X' j,
      fun t => ⟨yields _ (hXl t), by simp⟩, by rw [hX0], ?_, ?_⟩
    · intro i hi
      rw [vec_tab_fun (fun t => softmaxFn n (vec (X t))) hi]
      have := softmax_curve h0 (fun t => vec (X t)) X' t0 hX hi
      rw [hX0] at this
      exact this
    · simp only [Finset.mul_sum]
      rw [Finset.sum_comm]
      apply Finset.sum_congr rfl
      intro j hj
      rw [vec_tab _ (by simpa using hj), Finset.sum_mul]
      apply Finset.sum_congr rfl
      intro i _
      ring
  · intro b k _ hb' _
    exact absurd hb' (by simp [AnyLayer.params])

theorem softmax_adjoint {l : Act.Layer} {n : Nat} (h0 : 0 < n) (hn : l.output.length = n) {x : List ℝ}
    (hx : x.length = n) : ∃ y, Adjoint n n (.act .softmax l) x y := ⟨_, (softmax_adjointWith h0 hn hx).adjoint⟩

end

end Verif.Net
