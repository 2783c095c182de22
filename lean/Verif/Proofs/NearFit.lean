import Verif.Proofs.NearTrain

/-
Training in floating point tends to training in exact arithmetic as the format becomes exact: passes, batches
and whole runs.
-/

namespace Verif.Float
open Spec Slide Filter Topology Verif.Net Finset

variable {ι : Type} {F : Filter ι} {A : ι → Arith} {L : ∀ i, Lib (A i)}

theorem nearLayer_set {X : ∀ i, FLayer (A i)} {n m : Nat} {l : AnyLayer} {P Q G : List (List ℝ)} :
    NearLayer F X n m (l.setParams P) Q G ↔ NearLayer F X n m l Q G := by
  unfold AnyLayer.setParams
  split <;> exact Iff.rfl

theorem plain_set {l : AnyLayer} {P : List (List ℝ)} (h : Plain l) : Plain (l.setParams P) := by
  unfold AnyLayer.setParams
  split <;> first | trivial | exact h

theorem learned_plain {l : AnyLayer} (h : Plain l) (b : Nat) : Learned l b := by
  cases l <;> first | exact h.elim | trivial

theorem NearLayer.congr {X Y : ∀ i, FLayer (A i)} {n m : Nat} {l : AnyLayer} {P G : List (List ℝ)}
    (h : NearLayer F X n m l P G) (e : ∀ᶠ i in F, Y i = X i) : NearLayer F Y n m l P G := by
  cases l with
  | dense l =>
    obtain ⟨K, w, b, gw, gb, h1, h2, h3, h4, h5, h6, h7, h8⟩ := h
    refine ⟨K, w, b, gw, gb, h1, h2, h3, h4, h5, h6, ?_, h8⟩
    filter_upwards [h7, e] with i h7 e
    rw [e]
    exact h7
  | act f l =>
    obtain ⟨h1, h2, O, GI, h3⟩ := h
    refine ⟨h1, h2, O, GI, ?_⟩
    filter_upwards [h3, e] with i h3 e
    rw [e]
    exact h3
  | _ => exact h.elim

/-- Lists of floating-point layers whose parameters tend to `θ` and whose gradients tend to `γ`. -/
inductive NearLayers (F : Filter ι) : (∀ i, List (FLayer (A i))) → Nat → Nat → List AnyLayer → Theta → Theta → Prop
  | nil {X : ∀ i, List (FLayer (A i))} {n : Nat} : (∀ᶠ i in F, X i = []) → NearLayers F X n n [] [] []
  | cons {X Z : ∀ i, List (FLayer (A i))} {Y : ∀ i, FLayer (A i)} {n k m : Nat} {l : AnyLayer}
      {ls : List AnyLayer} {P G : List (List ℝ)} {θ γ : Theta} : (∀ᶠ i in F, X i = Y i :: Z i) → Plain l →
      Maps n k l → NearLayer F Y n k l P G → NearLayers F Z k m ls θ γ →
      NearLayers F X n m (l :: ls) (P :: θ) (G :: γ)

/-! ### A step -/

theorem pass_near (hF : Fine F A L) {f : LossFn} {inv : ℝ} {I : ∀ i, Fl (A i)} (hI : Near F I inv)
    {T : ∀ i, List (Fl (A i))} {t : List ℝ} (hT : NearL F T t) {X : ∀ i, List (FLayer (A i))} {n m : Nat}
    {ls : List AnyLayer} {θ γ : Theta} (h : NearLayers F X n m ls θ γ) :
    ∀ {x : List ℝ} {V : ∀ i, List (Fl (A i))}, t.length = m → FitsTheta ls θ → x.length = n → NearL F V x →
      SmoothAll (withTheta ls θ) x →
      ∃ (y : List ℝ) (X' : ∀ i, List (FLayer (A i))) (GG : ∀ i, List (Fl (A i))) (gi : List ℝ) (γ' : Theta),
        YieldsAll (withTheta ls θ) x y ∧ y.length = m ∧
        (∀ᶠ i in F, passF (L i) f (I i) (T i) (X i) (V i) = .ok (X' i, GG i)) ∧ gi.length = n ∧ NearL F GG gi ∧
        NearLayers F X' n m ls θ γ' ∧
        ChainCurve (withTheta ls θ) n m x y (tab m (lossGrad f inv (vec t) (vec y))) gi ∧
        ∀ (j : Nat) (l : AnyLayer), (withTheta ls θ)[j]? = some l → ∀ b k, b < l.params.length →
          k < (l.params.getD b []).length →
          StepGrad (withTheta ls θ) j b k l m x y (tab m (lossGrad f inv (vec t) (vec y)))
            (entry (γ'.getD j []) b k - entry (γ.getD j []) b k) := by
  induction h with
  | @nil X n h1 =>
    intro x V ht _ hx hV _
    obtain ⟨G, g1, g2⟩ := near_lossGrad hF f hI ht hx hT hV
    refine ⟨x, fun _ => [], G, _, [], .nil x, hx, ?_, by simp, g2, .nil (Eventually.of_forall fun _ => rfl), ?_, ?_⟩
    · filter_upwards [h1, g1] with i h1 g1
      rw [h1]
      show (lossGradF f (I i) (T i) (V i) >>= _) = _
      rw [g1, Exec.bind_ok]
    · intro X X' t0 e1 e2 e3
      exact ⟨X, X', fun t => ⟨.nil _, e2 t⟩, e1, e3, rfl⟩
    · intro j l hj
      simp [withTheta] at hj
  | @cons X Z Y n k m l ls P G θ γ h1 hp hm h2 _ ih =>
    intro x V ht hθ hx hV hs
    simp only [FitsTheta, List.map_cons, List.cons.injEq] at hθ
    obtain ⟨hP, hθ⟩ := hθ
    have hPl : P.length = l.params.length := by simpa using congrArg List.length hP
    have hpar : (l.setParams P).params = P := (params_setParams hPl).1
    change SmoothAll (l.setParams P :: withTheta ls θ) x at hs
    cases hs with
    | cons s1 s2 s3 s4 =>
    obtain ⟨z, GI, GP, ⟨a1, a2, a3⟩, X1, a4, a5, a6⟩ := layer_pass hF (plain_set hp) (maps_setParams hm hP)
      (by rw [hpar]; exact nearLayer_set.mpr h2) hx hV s1
    obtain ⟨l1, e1, e2⟩ := a1 _ rfl
    rw [s2] at e1
    cases e1
    rw [s3] at e2
    cases e2
    obtain ⟨y, Z', GG, g1, γ', b1, b2, b3, b4, b5, b6, b7, b8⟩ := ih ht hθ a2 a5 s4
    obtain ⟨X2, c1, c2, G', c3, c4⟩ := a6 GG g1 b4 b5
    obtain ⟨d1, _, d2, d3⟩ := a3 g1 b4
    refine ⟨y, fun i => X2 i :: Z' i, fun i => (X2 i).inputGradient, GI g1, G' :: γ', .cons a1 b1, b2, ?_, d1, c2,
      .cons (Eventually.of_forall fun _ => rfl) hp hm (nearLayer_set.mp (by rw [hpar] at c3; exact c3)) b6, ?_, ?_⟩
    · filter_upwards [h1, a4, b3, c1] with i h1 a4 b3 c1
      rw [h1]
      show ((Y i).trainingForward (L i) (V i) >>= fun l => _) = _
      rw [a4, Exec.bind_ok]
      show (passF (L i) f (I i) (T i) (Z i) (X1 i).output >>= fun r => _) = _
      rw [b3, Exec.bind_ok]
      show ((X1 i).backward (GG i) >>= fun l => _) = _
      rw [c1, Exec.bind_ok]
    · intro W W' t0 hX0 hXl hX
      obtain ⟨Z, Z', z1, z2, z3, z4⟩ := d2 s1 W W' t0 hX0 hXl hX
      obtain ⟨Y, Y', y1, y2, y3, y4⟩ := b7 Z Z' t0 z2 (fun t => (z1 t).2) z3
      exact ⟨Y, Y', fun t => ⟨.cons (z1 t).1 (y1 t).1, (y1 t).2⟩, y2, y3, y4.trans z4⟩
    · intro j l' hj b q hb hq
      cases j with
      | zero =>
        change some (l.setParams P) = some l' at hj
        cases hj
        obtain ⟨Z, Z', z1, z2, z3, z4⟩ := d3 b q (learned_plain (plain_set hp) b) hb hq
        obtain ⟨Y, Y', y1, y2, y3, y4⟩ := b7 Z Z' _ z2 (fun t => (z1 t).2) z3
        refine ⟨Y, Y', fun s => ⟨.cons (z1 s).1 (y1 s).1, (y1 s).2⟩, y2, y3, ?_⟩
        rw [y4, z4]
        have := c4 b q hb hq
        show _ = entry G' b q - entry G b q
        rw [this]
        ring
      | succ j =>
        change (withTheta ls θ)[j]? = some l' at hj
        obtain ⟨Y, Y', y1, y2, y3, y4⟩ := b8 j l' hj b q hb hq
        exact ⟨Y, Y', fun s => ⟨.cons a1 (y1 s).1, (y1 s).2⟩, y2, y3, y4⟩

/-! ### A batch -/

theorem steps_near (hF : Fine F A L) {f : LossFn} {inv : ℝ} {I : ∀ i, Fl (A i)} (hI : Near F I inv) {n m : Nat}
    {ls : List AnyLayer} {θ : Theta} (hθ : FitsTheta ls θ) : ∀ (samples : List (List ℝ × List ℝ))
    {X : ∀ i, List (FLayer (A i))} {γ : Theta}, NearLayers F X n m ls θ γ →
    (∀ s ∈ samples, FitSample (withTheta ls θ) f n m s.1 s.2 ∧ SmoothAll (withTheta ls θ) s.1) →
    ∃ (X' : ∀ i, List (FLayer (A i))) (γ' : Theta),
      (∀ᶠ i in F, stepsF (L i) f (I i) samples (X i) = .ok (X' i)) ∧ NearLayers F X' n m ls θ γ' ∧
      ∀ (j : Nat) (l : AnyLayer), (withTheta ls θ)[j]? = some l → ∀ b k, b < l.params.length →
        k < (l.params.getD b []).length →
        HasDerivAt (fun v => cost f m inv samples ((withTheta ls θ).set j (withParam l b k v)))
          (entry (γ'.getD j []) b k - entry (γ.getD j []) b k) (entry l.params b k) := by
  intro samples
  induction samples with
  | nil =>
    intro X γ h _
    refine ⟨X, γ, Eventually.of_forall fun _ => rfl, h, ?_⟩
    intro j l _ b k _ _
    simp only [cost, List.map_nil, List.sum_nil, sub_self]
    exact hasDerivAt_const _ _
  | cons s ss ih =>
    intro X γ h hs
    obtain ⟨h1, h2⟩ := hs s (by simp)
    obtain ⟨y, X1, GG, gi, γ1, a1, a2, a3, _, _, a6, _, a8⟩ := pass_near hF hI (f := f) (nearL_fins s.2) h
      h1.target.1 hθ h1.size (nearL_fins s.1) h2
    obtain ⟨X2, γ2, b1, b2, b3⟩ := ih a6 fun s' hs' => hs s' (by simp [hs'])
    refine ⟨X2, γ2, ?_, b2, ?_⟩
    · filter_upwards [a3, b1] with i a3 b1
      show (passF (L i) f (I i) (s.2.map .fin) (X i) (s.1.map .fin) >>= fun r => _) = _
      have a3' : passF (L i) f (I i) (s.2.map .fin) (X i) (s.1.map .fin) = .ok (X1 i, GG i) := a3
      rw [a3', Exec.bind_ok]
      exact b1
    · intro j l hj b k hb hk
      obtain ⟨Y, Y', y1, y2, y3, y4⟩ := a8 j l hj b k hb hk
      have hy := h1.loss
      rw [prediction_of a1] at hy
      have hd := objective_curve (inv := inv) y2 y3 hy
      rw [y4] at hd
      have := hd.add (b3 j l hj b k hb hk)
      refine (this.congr_deriv (by ring)).congr_of_eventuallyEq (Eventually.of_forall fun v => ?_)
      simp only [cost, List.map_cons, List.sum_cons, Pi.add_apply]
      rw [prediction_of (y1 v).1]

/-! ### The optimizer -/

theorem vec_append_left {α : Type} [Zero α] {a b : List α} {k : Nat} (h : k < a.length) :
    vec (a ++ b) k = vec a k := by
  unfold vec
  rw [List.getD_eq_getElem?_getD, List.getElem?_append_left h, ← List.getD_eq_getElem?_getD]

theorem vec_append_right {α : Type} [Zero α] {a b : List α} {k : Nat} :
    vec (a ++ b) (a.length + k) = vec b k := by
  unfold vec
  rw [List.getD_eq_getElem?_getD, List.getElem?_append_right (by omega), ← List.getD_eq_getElem?_getD]
  simp

/-- `train` with gradient descent on a dense layer. -/
theorem update_dense {A : Arith} (eta : Fl A) (l : Dense.Layer (Fl A)) {n m : Nat} (h1 : l.inputSize = n)
    (h2 : l.outputSize = m) (hw : l.weights.length = m * n) (hb : l.biases.length = m)
    (hgw : l.grads.weight.length = m * n) (hgb : l.grads.bias.length = m) :
    (FLayer.dense l).update eta = .ok (.dense { l with
      weights := tab (m * n) fun k => vec l.weights k - eta * vec l.grads.weight k
      biases := tab m fun k => vec l.biases k - eta * vec l.grads.bias k
      grads := { l.grads with weight := tab (m * n) fun _ => 0, bias := tab m fun _ => 0 } }) := by
  obtain ⟨l', e1, e2, e3, e4, e5, e6⟩ := Opt.trainSelf_spec (Opt.gdStep eta)
    ⟨.dense l.inputSize l.outputSize, [l.weights, l.biases], [l.grads.weight, l.grads.bias]⟩
    (by show [_, _] = [_, _]; rw [hw, hb, h1, h2])
    (by show [_, _] = [_, _]; rw [hgw, hgb, h1, h2]) ()
  have two : ∀ {ps : List (List (Fl A))}, Opt.Fits (.dense l.inputSize l.outputSize) ps →
      ∃ w b, ps = [w, b] ∧ w.length = m * n ∧ b.length = m := by
    intro ps h
    have hl : ps.length = 2 := by simpa [Opt.Kind.blockSizes] using congrArg List.length h
    match ps, hl, h with
    | [w, b], _, h =>
      change [w.length, b.length] = [_, _] at h
      simp only [List.cons.injEq, and_true] at h
      exact ⟨w, b, rfl, by rw [h.1, h1, h2], by rw [h.2, h2]⟩
  obtain ⟨w, b, p1, p2, p3⟩ := two e3
  obtain ⟨gw, gb, q1, q2, q3⟩ := two e4
  have hc : (Opt.Kind.dense l.inputSize l.outputSize).paramCount = m * n + m := by
    simp only [Opt.Kind.paramCount, h1, h2]
    ring
  rw [p1] at e5
  rw [q1] at e6
  simp only [hc, List.flatten_cons, List.flatten_nil, List.append_nil] at e5 e6
  unfold FLayer.update
  dsimp only
  rw [e1]
  dsimp only
  rw [p1, q1]
  have k1 : w = tab (m * n) fun k => vec l.weights k - eta * vec l.grads.weight k := by
    rw [eq_tab w, p2]
    apply tab_congr
    intro k hk
    have := e5 k (by omega)
    rw [vec_append_left (by omega), vec_append_left (by omega), vec_append_left (by omega)] at this
    exact this
  have k2 : b = tab m fun k => vec l.biases k - eta * vec l.grads.bias k := by
    rw [eq_tab b, p3]
    apply tab_congr
    intro k hk
    have := e5 (m * n + k) (by omega)
    rw [← p2, vec_append_right, p2, ← hw, vec_append_right, hw, ← hgw, vec_append_right] at this
    exact this
  have k3 : gw = tab (m * n) fun _ => 0 := by
    rw [eq_tab gw, q2]
    apply tab_congr
    intro k hk
    have := e6 k (by omega)
    rwa [vec_append_left (by omega)] at this
  have k4 : gb = tab m fun _ => 0 := by
    rw [eq_tab gb, q3]
    apply tab_congr
    intro k hk
    have := e6 (m * n + k) (by omega)
    rwa [← q2, vec_append_right] at this
  rw [← k1, ← k2, ← k3, ← k4]

theorem layer_update (hF : Fine F A L) {E : ∀ i, Fl (A i)} {eta : ℝ} (hE : Near F E eta)
    {X : ∀ i, FLayer (A i)} {n m : Nat} {l : AnyLayer} {P G : List (List ℝ)} (h : NearLayer F X n m l P G) :
    ∃ (X' : ∀ i, FLayer (A i)) (P' G' : List (List ℝ)), (∀ᶠ i in F, (X i).update (E i) = .ok (X' i)) ∧
      NearLayer F X' n m l P' G' ∧ P'.map List.length = P.map List.length ∧
      ∀ b k, b < P.length → k < (P.getD b []).length →
        entry P' b k = entry P b k - eta * entry G b k ∧ entry G' b k = 0 := by
  cases l with
  | dense l =>
    obtain ⟨K, w, b, gw, gb, rfl, rfl, hw, hb, hgw, hgb, hK, nw, nb, ngw, ngb⟩ := h
    refine ⟨fun i => .dense { K i with
        weights := tab (m * n) fun k => vec (K i).weights k - E i * vec (K i).grads.weight k
        biases := tab m fun k => vec (K i).biases k - E i * vec (K i).grads.bias k
        grads := { (K i).grads with weight := tab (m * n) fun _ => 0, bias := tab m fun _ => 0 } },
      [tab (m * n) fun k => vec w k - eta * vec gw k, tab m fun k => vec b k - eta * vec gb k],
      [tab (m * n) fun _ => 0, tab m fun _ => 0], ?_, ⟨fun i => { K i with
        weights := tab (m * n) fun k => vec (K i).weights k - E i * vec (K i).grads.weight k
        biases := tab m fun k => vec (K i).biases k - E i * vec (K i).grads.bias k
        grads := { (K i).grads with weight := tab (m * n) fun _ => 0, bias := tab m fun _ => 0 } }, _, _, _, _,
        rfl, rfl, by simp, by simp, by simp, by simp, ?_, ?_, ?_, ?_, ?_⟩, by simp [hw, hb], ?_⟩
    · filter_upwards [hK, nw.1, nb.1, ngw.1, ngb.1] with i ⟨k1, k2, k3, k4, k5⟩ k6 k7 k8 k9
      rw [k1]
      exact update_dense _ _ k2 k3 (by omega) (by omega) (by omega) (by omega)
    · filter_upwards [hK] with i ⟨k1, k2, k3, k4, k5⟩
      exact ⟨rfl, k2, k3, k4, k5⟩
    · exact nearL_tab fun k hk => near_sub hF (nw.2 k (by omega)) (near_mul hF hE (ngw.2 k (by omega)))
    · exact nearL_tab fun k hk => near_sub hF (nb.2 k (by omega)) (near_mul hF hE (ngb.2 k (by omega)))
    · exact nearL_tab fun k hk => near_zero
    · exact nearL_tab fun k hk => near_zero
    · intro c k hc hk
      have hc2 : c < 2 := hc
      match c, hc2 with
      | 0, _ =>
        have hk' : k < m * n := by
          have : k < w.length := hk
          omega
        constructor
        · show vec (tab _ _) k = _
          rw [vec_tab _ hk']
          rfl
        · show vec (tab _ _) k = _
          rw [vec_tab _ hk']
      | 1, _ =>
        have hk' : k < m := by
          have : k < b.length := hk
          omega
        constructor
        · show vec (tab _ _) k = _
          rw [vec_tab _ hk']
          rfl
        · show vec (tab _ _) k = _
          rw [vec_tab _ hk']
  | act f l =>
    obtain ⟨rfl, rfl, O, GI, hO⟩ := h
    refine ⟨X, [], [], ?_, ⟨rfl, rfl, O, GI, hO⟩, rfl, fun b k hb => absurd hb (by simp)⟩
    filter_upwards [hO] with i ⟨k1, _⟩
    rw [k1]
    rfl
  | _ => exact h.elim

theorem update_near (hF : Fine F A L) {E : ∀ i, Fl (A i)} {eta : ℝ} (hE : Near F E eta)
    {X : ∀ i, List (FLayer (A i))} {n m : Nat} {ls : List AnyLayer} {θ γ : Theta}
    (h : NearLayers F X n m ls θ γ) :
    ∃ (X' : ∀ i, List (FLayer (A i))) (θ' γ' : Theta), (∀ᶠ i in F, updateAllF (E i) (X i) = .ok (X' i)) ∧
      NearLayers F X' n m ls θ' γ' ∧ θ'.map (List.map List.length) = θ.map (List.map List.length) ∧
      ∀ j b k, b < (θ.getD j []).length → k < ((θ.getD j []).getD b []).length →
        entry (θ'.getD j []) b k = entry (θ.getD j []) b k - eta * entry (γ.getD j []) b k ∧
        entry (γ'.getD j []) b k = 0 := by
  induction h with
  | nil h =>
    refine ⟨fun _ => [], [], [], ?_, .nil (Eventually.of_forall fun _ => rfl), rfl, fun j b k hb => ?_⟩
    · filter_upwards [h] with i h
      rw [h]
      rfl
    · simp at hb
  | @cons X Z Y n k m l ls P G θ γ h1 hp hm h2 _ ih =>
    obtain ⟨Z', θ', γ', a1, a2, a3, a4⟩ := ih
    obtain ⟨Y', P', G', b1, b2, b3, b4⟩ := layer_update hF hE h2
    refine ⟨fun i => Y' i :: Z' i, P' :: θ', G' :: γ', ?_, .cons (Eventually.of_forall fun _ => rfl) hp hm b2 a2,
      by simp [a3, b3], ?_⟩
    · filter_upwards [h1, a1, b1] with i h1 a1 b1
      rw [h1]
      show ((Y i).update (E i) >>= fun l => _) = _
      rw [b1, Exec.bind_ok]
      show (updateAllF (E i) (Z i) >>= fun l => _) = _
      rw [a1, Exec.bind_ok]
    · intro j b k hb hk
      cases j with
      | zero => exact b4 b k hb hk
      | succ j => exact a4 j b k hb hk

/-! ### A run -/

/-- The gradients of all parameters are zero. -/
def ZeroGrad (θ γ : Theta) : Prop :=
  ∀ j b k, b < (θ.getD j []).length → k < ((θ.getD j []).getD b []).length → entry (γ.getD j []) b k = 0

theorem batch_near (hF : Fine F A L) {f : LossFn} {inv : ℝ} {I : ∀ i, Fl (A i)} (hI : Near F I inv)
    {E : ∀ i, Fl (A i)} {eta : ℝ} (hE : Near F E eta) {n m : Nat} {ls : List AnyLayer} {θ γ : Theta}
    (hθ : FitsTheta ls θ) (hz : ZeroGrad θ γ) (samples : List (List ℝ × List ℝ))
    {X : ∀ i, List (FLayer (A i))} (h : NearLayers F X n m ls θ γ)
    (hs : ∀ s ∈ samples, FitSample (withTheta ls θ) f n m s.1 s.2 ∧ SmoothAll (withTheta ls θ) s.1) :
    ∃ (X1 X' : ∀ i, List (FLayer (A i))) (θ' γ' : Theta),
      (∀ᶠ i in F, stepsF (L i) f (I i) samples (X i) = .ok (X1 i) ∧ updateAllF (E i) (X1 i) = .ok (X' i)) ∧
      NearLayers F X' n m ls θ' γ' ∧ ZeroGrad θ' γ' ∧
      GdStep ls eta (fun θ => cost f m inv samples (withTheta ls θ)) θ θ' := by
  obtain ⟨X1, γ1, a1, a2, a3⟩ := steps_near hF hI hθ samples h hs
  obtain ⟨X2, θ', γ', b1, b2, b3, b4⟩ := update_near hF hE a2
  have hlen : ∀ j, (θ'.getD j []).map List.length = (θ.getD j []).map List.length := by
    intro j
    have := congrArg (fun z => z.getD j []) b3
    simp only [List.getD_eq_getElem?_getD, List.getElem?_map] at this ⊢
    cases h1 : θ'[j]? <;> cases h2 : θ[j]? <;> simp [h1, h2] at this ⊢ <;> simp [this]
  have hblk : ∀ {p q : List (List ℝ)} {b k : Nat}, p.map List.length = q.map List.length → b < p.length →
      k < (p.getD b []).length → b < q.length ∧ k < (q.getD b []).length := by
    intro p q b k e hb hk
    have e1 : p.length = q.length := by simpa using congrArg List.length e
    refine ⟨by omega, ?_⟩
    have := congrArg (fun z => z[b]?) e
    simp only [List.getElem?_map] at this
    rw [List.getElem?_eq_getElem hb, List.getElem?_eq_getElem (by omega)] at this
    simp only [Option.map_some, Option.some.injEq] at this
    rw [List.getD_eq_getElem?_getD, List.getElem?_eq_getElem hb] at hk
    rw [List.getD_eq_getElem?_getD, List.getElem?_eq_getElem (by omega)]
    simp only [Option.getD_some] at hk ⊢
    omega
  refine ⟨X1, X2, θ', γ', a1.and b1, b2, ?_, b3.trans hθ, ?_⟩
  · intro j b k hb hk
    obtain ⟨c1, c2⟩ := hblk (hlen j) hb hk
    exact (b4 j b k c1 c2).2
  · intro j l b k hj _ hb hk
    obtain ⟨t1, t2⟩ := fitsTheta_get hθ hj
    have tlen : (θ.getD j []).length = l.params.length := by simpa using congrArg List.length t2
    obtain ⟨c1, c2⟩ := hblk t2.symm hb hk
    have hpar := (params_setParams tlen).1
    have hd := a3 j _ (withTheta_get hθ hj) b k (by rw [hpar]; exact c1) (by rw [hpar]; exact c2)
    rw [hz j b k c1 c2, sub_zero, hpar] at hd
    refine ⟨_, ?_, (b4 j b k c1 c2).1⟩
    have hfun : (fun v => cost f m inv samples
          ((withTheta ls θ).set j (withParam (l.setParams (θ.getD j [])) b k v)))
        = fun v => cost f m inv samples (withTheta ls (setTheta θ j b k v)) := by
      funext v
      rw [withTheta_set hθ hj]
    rw [← hfun]
    exact hd

theorem fit_near (hF : Fine F A L) {f : LossFn} {inv : ℝ} {I : ∀ i, Fl (A i)} (hI : Near F I inv)
    {E : ∀ i, Fl (A i)} {eta : ℝ} (hE : Near F E eta) {n m : Nat} {ls : List AnyLayer} :
    ∀ (bs : List (List (List ℝ × List ℝ))) {θ γ : Theta} {X : ∀ i, List (FLayer (A i))},
    FitsTheta ls θ → ZeroGrad θ γ → NearLayers F X n m ls θ γ →
    (∀ pre θ1, pre <+: bs → Descent ls eta (pre.map fun b θ => cost f m inv b (withTheta ls θ)) θ θ1 →
      ∀ b ∈ bs, ∀ s ∈ b, FitSample (withTheta ls θ1) f n m s.1 s.2 ∧ SmoothAll (withTheta ls θ1) s.1) →
    ∃ (X' : ∀ i, List (FLayer (A i))) (θ' γ' : Theta),
      (∀ᶠ i in F, fitF (L i) f (I i) (E i) bs (X i) = .ok (X' i)) ∧ NearLayers F X' n m ls θ' γ' ∧
      FitsTheta ls θ' ∧ Descent ls eta (bs.map fun b θ => cost f m inv b (withTheta ls θ)) θ θ' := by
  intro bs
  induction bs with
  | nil =>
    intro θ γ X hθ _ h _
    exact ⟨X, θ, γ, Eventually.of_forall fun _ => rfl, h, hθ, .nil θ⟩
  | cons b bs ih =>
    intro θ γ X hθ hz h hs
    obtain ⟨X1, X2, θ1, γ1, a1, a2, a3, a4⟩ := batch_near hF hI hE hθ hz b h
      (hs [] θ List.nil_prefix (.nil θ) b (by simp))
    obtain ⟨X', θ', γ', b1, b2, b3, b4⟩ := ih a4.1 a3 a2 fun pre θ2 h1 h2 b' hb' =>
      hs (b :: pre) θ2 (by simpa using h1) (.cons a4 h2) b' (by simp [hb'])
    refine ⟨X', θ', γ', ?_, b2, b3, .cons a4 b4⟩
    filter_upwards [a1, b1] with i a1 b1
    show (stepsF (L i) f (I i) b (X i) >>= fun l => _) = _
    rw [a1.1, Exec.bind_ok, a1.2, Exec.bind_ok]
    exact b1

/-! ### The start -/

theorem near_floats (ls : List AnyLayer) {n m : Nat} (ht : Trainable n m ls) (hp : ∀ l ∈ ls, Plain l) :
    NearLayers F (fun i => floats (A i) ls) n m ls (ls.map AnyLayer.params) (ls.map AnyLayer.paramGrads) := by
  induction ht with
  | nil n => exact .nil (Eventually.of_forall fun _ => rfl)
  | @cons n k m l ls h1 h2 _ ih =>
    have hpl := hp l (by simp)
    have ih := ih fun l' hl' => hp l' (by simp [hl'])
    cases l with
    | dense l =>
      obtain ⟨e1, e2, e3, e4, e5⟩ := h1
      obtain ⟨g1, g2, g3⟩ := h2
      refine .cons (Y := fun i => .dense
        { inputSize := l.inputSize, outputSize := l.outputSize, weights := fins (A i) l.weights,
          biases := fins (A i) l.biases, grads := ⟨fins (A i) l.grads.input, fins (A i) l.grads.weight,
          fins (A i) l.grads.bias⟩, output := fins (A i) l.output, lastInput := fins (A i) l.lastInput })
        (Eventually.of_forall fun _ => rfl) trivial ⟨e1, e2, e3, e4, e5⟩ ?_ ih
      refine ⟨fun i =>
        { inputSize := l.inputSize, outputSize := l.outputSize, weights := fins (A i) l.weights,
          biases := fins (A i) l.biases, grads := ⟨fins (A i) l.grads.input, fins (A i) l.grads.weight,
          fins (A i) l.grads.bias⟩, output := fins (A i) l.output, lastInput := fins (A i) l.lastInput },
        l.weights, l.biases, l.grads.weight, l.grads.bias, rfl, rfl, e4, e5, g2, g3,
        Eventually.of_forall fun _ => ⟨rfl, e1, e2, by simp [fins, e3], by simp [fins, g1]⟩,
        nearL_fins _, nearL_fins _, nearL_fins _, nearL_fins _⟩
    | act f l =>
      refine .cons (Y := fun i => .act f (fins (A i) l.output) (fins (A i) l.inputGradients))
        (Eventually.of_forall fun _ => rfl) trivial h1 ⟨rfl, rfl, fun i => fins (A i) l.output,
          fun i => fins (A i) l.inputGradients, Eventually.of_forall fun _ => ⟨rfl, ?_, ?_⟩⟩ ih
      · intro hl
        cases f <;> first | (cases hl; done) | (simp only [fins, List.length_map]; first | exact h1.2 | exact h1.2.1)
      · unfold fins
        rw [List.length_map]
        exact h2
    | _ => exact hpl.elim

/-! ### The end -/

theorem nearL_close {X : ∀ i, List (Fl (A i))} {x : List ℝ} (h : NearL F X x) {ε : ℝ} (hε : 0 < ε) :
    ∀ᶠ i in F, ∃ z : List ℝ, X i = fins (A i) z ∧ z.length = x.length ∧
      ∀ j, j < x.length → |vec z j - vec x j| < ε := by
  have key : ∀ᶠ i in F, ∀ j ∈ range x.length, ∃ t, vec (X i) j = .fin t ∧ |t - vec x j| < ε := by
    rw [Finset.eventually_all]
    intro j hj
    obtain ⟨s, hf, hl⟩ := h.2 j (by simpa using hj)
    filter_upwards [hf, (Metric.tendsto_nhds.mp hl) ε hε] with i e1 e2
    exact ⟨s i, e1, by simpa [Real.dist_eq] using e2⟩
  filter_upwards [key, h.1] with i k1 k2
  have k1' : ∀ j, ∃ t, j < x.length → vec (X i) j = .fin t ∧ |t - vec x j| < ε := fun j => by
    by_cases hj : j < x.length
    · obtain ⟨t, h⟩ := k1 j (by simpa using hj)
      exact ⟨t, fun _ => h⟩
    · exact ⟨0, fun h => absurd h hj⟩
  choose t ht using k1'
  refine ⟨tab x.length t, ?_, by simp, fun j hj => by rw [vec_tab t hj]; exact (ht j hj).2⟩
  apply List.ext_getElem?
  intro j
  by_cases hj : j < x.length
  · rw [getElem?_vec (by omega), (ht j hj).1, fins, List.getElem?_map, tab_getElem? _ hj]
    rfl
  · rw [List.getElem?_eq_none (by omega), List.getElem?_eq_none (by simp [fins]; omega)]

theorem near_close {X : ∀ i, List (FLayer (A i))} {n m : Nat} {ls : List AnyLayer} {θ γ : Theta}
    (h : NearLayers F X n m ls θ γ) {ε : ℝ} (hε : 0 < ε) : ∀ᶠ i in F, CloseTo ε (X i) θ := by
  induction h with
  | nil h =>
    filter_upwards [h] with i h
    rw [h]
    exact .nil
  | @cons X Z Y n k m l ls P G θ γ h1 hp hm h2 _ ih =>
    cases l with
    | dense l =>
      obtain ⟨K, w, b, gw, gb, rfl, rfl, hw, hb, hgw, hgb, hK, nw, nb, ngw, ngb⟩ := h2
      filter_upwards [h1, ih, hK, nearL_close nw hε, nearL_close nb hε] with i k1 k2 k3 k4 k5
      rw [k1, k3.1]
      exact .cons (.cons k4 (.cons k5 .nil)) k2
    | act f l =>
      obtain ⟨rfl, rfl, O, GI, hO⟩ := h2
      filter_upwards [h1, ih, hO] with i k1 k2 k3
      rw [k1, k3.1]
      exact .cons .nil k2
    | _ => exact hp.elim

/-! ### Gradient descent is unique -/

theorem theta_ext {θ θ' : Theta} (h : θ.map (List.map List.length) = θ'.map (List.map List.length))
    (he : ∀ j b k, j < θ.length → b < (θ.getD j []).length → k < ((θ.getD j []).getD b []).length →
      entry (θ.getD j []) b k = entry (θ'.getD j []) b k) : θ = θ' := by
  have hl : θ.length = θ'.length := by simpa using congrArg List.length h
  apply List.ext_getElem hl
  intro j h1 h2
  have hj := congrArg (fun z => z[j]?) h
  simp only [List.getElem?_map, List.getElem?_eq_getElem h1, List.getElem?_eq_getElem h2, Option.map_some,
    Option.some.injEq] at hj
  have g1 : θ.getD j [] = θ[j] := by simp [h1]
  have g2 : θ'.getD j [] = θ'[j] := by simp [h2]
  have hl2 : θ[j].length = θ'[j].length := by simpa using congrArg List.length hj
  apply List.ext_getElem hl2
  intro b h3 h4
  have hb := congrArg (fun z => z[b]?) hj
  simp only [List.getElem?_map, List.getElem?_eq_getElem h3, List.getElem?_eq_getElem h4, Option.map_some,
    Option.some.injEq] at hb
  apply List.ext_getElem hb
  intro k h5 h6
  have := he j b k h1 (by rw [g1]; exact h3) (by rw [g1]; simpa [h3] using h5)
  rw [g1, g2] at this
  simpa [entry, vec, h3, h4, h5, h6] using this

theorem gdStep_unique {ls : List AnyLayer} (hp : ∀ l ∈ ls, Plain l) {eta : ℝ} {c : Theta → ℝ} {θ θ1 θ2 : Theta}
    (h1 : GdStep ls eta c θ θ1) (h2 : GdStep ls eta c θ θ2) : θ1 = θ2 := by
  refine theta_ext (h1.1.trans h2.1.symm) ?_
  intro j b k hj hb hk
  have hjl : j < ls.length := by rw [← fitsTheta_length h1.1]; exact hj
  have hl : ls[j]? = some ls[j] := List.getElem?_eq_getElem hjl
  obtain ⟨_, t2⟩ := fitsTheta_get h1.1 hl
  have tlen : (θ1.getD j []).length = ls[j].params.length := by simpa using congrArg List.length t2
  have hk' : k < (ls[j].params.getD b []).length := by
    have := congrArg (fun z => z[b]?) t2
    simp only [List.getElem?_map] at this
    rw [List.getElem?_eq_getElem hb, List.getElem?_eq_getElem (by omega)] at this
    simp only [Option.map_some, Option.some.injEq] at this
    rw [List.getD_eq_getElem?_getD, List.getElem?_eq_getElem hb] at hk
    rw [List.getD_eq_getElem?_getD, List.getElem?_eq_getElem (by omega)]
    simp only [Option.getD_some] at hk ⊢
    omega
  have hlb := learned_plain (hp _ (List.getElem_mem hjl)) b
  obtain ⟨D1, a1, a2⟩ := h1.2 j _ b k hl hlb (by omega) hk'
  obtain ⟨D2, b1, b2⟩ := h2.2 j _ b k hl hlb (by omega) hk'
  rw [a2, b2, a1.unique b1]

theorem descent_unique {ls : List AnyLayer} (hp : ∀ l ∈ ls, Plain l) {eta : ℝ} {cs : List (Theta → ℝ)} :
    ∀ {θ θ1 θ2 : Theta}, Descent ls eta cs θ θ1 → Descent ls eta cs θ θ2 → θ1 = θ2 := by
  induction cs with
  | nil =>
    intro θ θ1 θ2 h1 h2
    cases h1
    cases h2
    rfl
  | cons c cs ih =>
    intro θ θ1 θ2 h1 h2
    cases h1 with
    | cons a1 a2 =>
      cases h2 with
      | cons b1 b2 =>
        rw [gdStep_unique hp a1 b1] at a2
        exact ih a2 b2

end Verif.Float
